import Verif.Model.Channel
import Mathlib.Analysis.SpecialFunctions.Exp
import Mathlib.Analysis.SpecialFunctions.Trigonometric.Inverse

/-!
Model of the channel centrelines: hyvr/geo/channel_utils.py, `curve_interp` in hyvr/optimized.py and the start points in
hyvr/geo/channel_ae.pyx.
-/

namespace Hyvr

open Py Real

/-- `thetaAR2`. hyvr/geo/channel_utils.py:140-158. `np.arcsin` is NaN outside [-1, 1]; users of this definition assume `|h| ≤ 1`. -/
noncomputable def thetaAR2 (t1 t2 k h eps : ℝ) : ℝ :=
  eps + 2 * exp (-k * h) * cos (k * arcsin h) * t1 + -exp (-2 * k * h) * t2

/-- Entry `idex` of `th_store` in `ferguson_theta`; `noise i` is the number drawn in round `i` (from N(0,1) in round 1 and, because of
`np.random.normal(1)`, from N(1,1) in the later rounds). hyvr/geo/channel_utils.py:104-137. -/
noncomputable def theta (noise : ℕ → ℝ) (epsFactor k h : ℝ) : ℕ → ℝ
  | 0 => thetaAR2 0 0 k h 0
  | 1 => thetaAR2 (theta noise epsFactor k h 0) 0 k h (noise 1 * epsFactor)
  | i + 2 => thetaAR2 (theta noise epsFactor k h (i + 1)) (theta noise epsFactor k h i) k h (noise (i + 2) * epsFactor)

/-- `np.interp(t, np.arange(len(v)), v)` for one `t`: linear between the nodes `0, 1, ...`, constant outside. numpy's documented
behaviour; used at hyvr/optimized.py:103-104. Only for non-empty `v`. -/
noncomputable def interpNodes (v : List ℝ) (t : ℝ) : ℝ :=
  if t ≤ 0 then v.getD 0 0
  else if (v.length : ℝ) - 1 ≤ t then v.getD (v.length - 1) 0
  else v.getD ⌊t⌋₊ 0 + (t - ⌊t⌋₊) * (v.getD (⌊t⌋₊ + 1) 0 - v.getD ⌊t⌋₊ 0)

/-- The `for j in range(ic+1, nc)` loop with `m` rounds left; `some j` after `break`. Reading beyond the arrays is an `IndexError`.
hyvr/optimized.py:110-114. -/
noncomputable def findNext (pts : List (ℝ × ℝ)) (tol : ℝ) : ℕ → ℕ → ℝ → Except PyErr (Option ℕ)
  | 0, _, _ => .ok none
  | m + 1, j, total =>
    match pts[j]?, pts[j - 1]? with
    | some (xj, yj), some (xp, yp) =>
      if total + √((xj - xp) ^ 2 + (yj - yp) ^ 2) > tol then .ok (some j)
      else findNext pts tol m (j + 1) (total + √((xj - xp) ^ 2 + (yj - yp) ^ 2))
    | _, _ => .error .indexError

/-- `while ic < nc`: the indices appended to `idx`; `none` if the fuel does not suffice. Without `break` the variable `j` is the last of the
range, or `ic + 1` if the range is empty. hyvr/optimized.py:107-115. -/
noncomputable def pickLoop (pts : List (ℝ × ℝ)) (tol : ℝ) (nc : ℕ) : ℕ → ℕ → Option (Except PyErr (List ℕ))
  | 0, ic => if ic < nc then none else some (.ok [])
  | fuel + 1, ic =>
    if ic < nc then
      match findNext pts tol (nc - (ic + 1)) (ic + 1) 0 with
      | .error e => some (.error e)
      | .ok (some j) =>
        match pickLoop pts tol nc fuel (j + 1) with
        | some (.ok rest) => some (.ok (j :: rest))
        | r => r
      | .ok none => pickLoop pts tol nc fuel ((if ic + 1 < nc then nc - 1 else ic + 1) + 1)
    else some (.ok [])

/-- The interpolated curve inside `curve_interp`. hyvr/optimized.py:102-104. -/
noncomputable def finePts (xc yc : List ℝ) (spacing : ℝ) : List (ℝ × ℝ) :=
  (arange (xc.getD 0 0) xc.length (spacing * (1 / 10))).map fun t => (interpNodes xc t, interpNodes yc t)

/-- `curve_interp`. hyvr/optimized.py:79-123. `xc[0]` of an empty array is an `IndexError`; zero spacing a `ZeroDivisionError` of
`np.arange`; the arrays have equal length at the only call. The loop gets `nc + 1` rounds; that this is enough is proved. -/
noncomputable def curveInterp (xc yc : List ℝ) (spacing : ℝ) : Option (Except PyErr (List (ℝ × ℝ))) :=
  if xc.length = 0 then some (.error .indexError)
  else if spacing = 0 then some (.error .zeroDivision)
  else
    match pickLoop (finePts xc yc spacing) spacing xc.length (xc.length + 1) 0 with
    | none => none
    | some (.error e) => some (.error e)
    | some (.ok idx) =>
      match (0 :: idx).mapM fun i => (finePts xc yc spacing)[i]? with
      | some l => some (.ok l)
      | none => some (.error .indexError)

/-- The loop filling `outputs`. hyvr/geo/channel_utils.py:55-67. -/
noncomputable def walk (ds : ℝ) : ℝ → ℝ → List ℝ → List CPoint
  | _, _, [] => []
  | x, y, th :: rest => ⟨x, y, ds * cos th, ds * sin th⟩ :: walk ds (x + ds * cos th) (y + ds * sin th) rest

/-- `np.mean`. -/
noncomputable def mean (l : List ℝ) : ℝ := l.sum / l.length

/-- Rotation of position and velocity by `ang` and shift of the position. hyvr/geo/channel_utils.py:71-81. -/
noncomputable def CPoint.move (ang xs ys : ℝ) (q : CPoint) : CPoint :=
  { x := cos ang * q.x - sin ang * q.y + xs
    y := sin ang * q.x + cos ang * q.y + ys
    vx := cos ang * q.vx - sin ang * q.vy
    vy := sin ang * q.vx + cos ang * q.vy }

/-- The centreline before trimming, from the resampled directions. hyvr/geo/channel_utils.py:43-44, 53-81. -/
noncomputable def centreline (ds flowAngle xs ys : ℝ) (th : List ℝ) : List CPoint :=
  (walk ds 0 0 th).map (CPoint.move (-mean th + flowAngle) xs ys)

/-- The mask `indomain`. hyvr/geo/channel_utils.py:91-92. -/
noncomputable def trim (g : Grid) (width : ℝ) (l : List CPoint) : List CPoint :=
  l.filter fun q => decide (q.x ≥ g.x0 - width) && decide (q.x ≤ g.xmax + width)

/-- The resampled directions in `ferguson_curve`. hyvr/geo/channel_utils.py:38-50. -/
noncomputable def fergusonDirections (h k ds epsFactor domainLength : ℝ) (noise : ℕ → ℝ) : Option (Except PyErr (List (ℝ × ℝ))) :=
  curveInterp (arange 0 (domainLength * 2) (ds + 1 / 10 ^ 10))
    ((List.range (arange 0 (domainLength * 2) (ds + 1 / 10 ^ 10)).length).map (theta noise epsFactor k h)) (1 / 10)

/-- `ferguson_curve`. hyvr/geo/channel_utils.py:5-101. -/
noncomputable def fergusonCurve (g : Grid) (h k ds epsFactor flowAngle domainLength xs ys width : ℝ) (noise : ℕ → ℝ) :
    Option (Except PyErr (List CPoint)) :=
  match fergusonDirections h k ds epsFactor domainLength noise with
  | none => none
  | some (.error e) => some (.error e)
  | some (.ok l) => some (.ok (trim g width (centreline (ds + 1 / 10 ^ 10) flowAngle xs ys (l.map Prod.snd))))

/-- `domain_width`, `domain_length`. hyvr/geo/channel_ae.pyx:106-107. -/
noncomputable def domainWidth (g : Grid) (ang : ℝ) : ℝ := |g.lx * sin ang| + |g.ly * cos ang|
/-- See `domainWidth`. -/
noncomputable def domainLength (g : Grid) (ang : ℝ) : ℝ := |g.lx * cos ang| + |g.ly * sin ang|

/-- `(xstart_grid, ystart_grid)`. hyvr/geo/channel_ae.pyx:136-137. -/
noncomputable def channelStart (g : Grid) (ang width ystart : ℝ) : ℝ × ℝ :=
  ((g.x0 + g.lx) / 2 - (domainLength g ang + width) / 2 * cos ang - ystart * sin ang,
   (g.y0 + g.ly) / 2 - (domainLength g ang + width) / 2 * sin ang + ystart * cos ang)

/-- `ystart[i]` on level `l`: the first draw, changed once per level if `mig` is given. hyvr/geo/channel_ae.pyx:108, 160-161. -/
noncomputable def ystartAt (first : ℕ → ℝ) (mig : Option (ℕ → ℕ → ℝ)) (i : ℕ) : ℕ → ℝ
  | 0 => first i
  | l + 1 => match mig with
    | some u => ystartAt first mig i l - u l i
    | none => ystartAt first mig i l

/-- The centreline of channel number `n` (counted over all levels) made by `generate_objects`. hyvr/geo/channel_ae.pyx:103-108, 136-153,
160-161. `flowAngle` in radians (line 105). The case of an unfinished loop is given an arbitrary value; it never occurs
(`C31_terminates`). -/
noncomputable def channelCurve (p : ChannelParams) (g : Grid) (h k ds epsFactor flowAngle : ℝ) (first : ℕ → ℝ) (mig : Option (ℕ → ℕ → ℝ))
    (noise : ℕ → ℕ → ℝ) (n : ℕ) (width : ℝ) : Except PyErr (List CPoint) :=
  let start := channelStart g flowAngle width (ystartAt first mig (n % p.channelNo) (n / p.channelNo))
  (fergusonCurve g h k ds epsFactor flowAngle (domainLength g flowAngle) start.1 start.2 width (noise n)).getD (.error .valueError)

end Hyvr
