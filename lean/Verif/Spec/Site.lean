import Verif.Spec.Inside
import Verif.Spec.Trough
import Verif.Spec.Channel
import Verif.Props.Sheet

/-!
Where the objects of a section of the ini-file are and how large they are (C105, C106, C107). `m` is the section `model`, `d` the section of the
element.
-/

namespace Hyvr.Spec

open Real

/-- The centre of the cells of column `(i, j)`. -/
def CellCentre (m : Dict) (i j : ℕ) (x y : ℝ) : Prop :=
  ∃ x0 dx y0 dy : ℚ, m "x0" = some (numVal x0) ∧ m "dx" = some (numVal dx) ∧ m "y0" = some (numVal y0) ∧ m "dy" = some (numVal dy) ∧
    x = x0 + (i + 1 / 2) * dx ∧ y = y0 + (j + 1 / 2) * dy

/-- The factor of the vertical trend at elevation `z`: 1 if there is none, otherwise linear from the first number at the bottom of the domain to the
second one at its top. -/
inductive TrendFactor (m d : Dict) (z f : ℝ) : Prop
  | constant (none : d "size_ztrend" = some (.leaf .none)) (one : f = 1)
  | linear (f0 f1 z0 lz : ℚ) (trend : d "size_ztrend" = some (numList [f0, f1])) (bottom : m "z0" = some (numVal z0))
      (height : m "lz" = some (numVal lz)) (value : lz ≠ 0 → f = f0 + (f1 - f0) * ((z - z0) / lz))

/-- `z` is the greatest elevation of the surface on a grid of `nx` by `ny` columns. -/
def Highest (nx ny : ℕ) (vals : ℕ → ℕ → ℝ) (z : ℝ) : Prop := (∀ i < nx, ∀ j < ny, vals i j ≤ z) ∧ ∃ i < nx, ∃ j < ny, vals i j = z

/-- A point of the domain from two uniform numbers. -/
noncomputable def placeIn (x0 lx y0 ly : ℚ) (u : ℝ × ℝ) : ℝ × ℝ := (x0 + lx * u.1, y0 + ly * u.2)

/-- Displacement after `i` levels from the normal numbers `n`, with mean and standard deviation in both directions. -/
noncomputable def displacement (mx sx my sy : ℚ) (n : ℕ → ℝ × ℝ) : ℕ → ℝ × ℝ
  | 0 => (0, 0)
  | i + 1 => ((displacement mx sx my sy n i).1 + (mx + sx * (n (i + 1)).1), (displacement mx sx my sy n i).2 + (my + sy * (n (i + 1)).2))

/-- The centres of the troughs of an AE, whose top has the mean `tz` and whose bottom the highest point `bz`. They are the points of the option
`te_xyz` if it is given. Otherwise they are on levels `agg` apart, from the mean of the AE's top down to `depth * buffer` above the highest point of its bottom:
new points of the domain on each level without the option `migrate`, displaced points of the level above with it. The number of points drawn is that for the mean
`trough_density * lx * ly`. -/
inductive Centres (m d : Dict) (r : ObjRandoms) (tz bz : ℝ) (cs : List (ℝ × ℝ × ℝ)) : Prop
  | given (v : Val) (pts : List (ℚ × ℚ × ℚ)) (te : d "te_xyz" = some v) (some : v ≠ .leaf .none)
      (points : pts ≠ [] → v = .node (pts.map fun q => numList [q.1, q.2.1, q.2.2]))
      (eq : cs = pts.map fun q => ((q.1 : ℝ), (q.2.1 : ℝ), (q.2.2 : ℝ)))
  | drawn (agg depth buffer density x0 lx y0 ly : ℚ) (te : d "te_xyz" = some (.leaf .none)) (hagg : d "agg" = some (numVal agg))
      (hdepth : d "depth" = some (numVal depth)) (hbuffer : d "buffer" = some (numVal buffer))
      (hdensity : d "trough_density" = some (numVal density)) (hx0 : m "x0" = some (numVal x0))
      (hlx : m "lx" = some (numVal lx)) (hy0 : m "y0" = some (numVal y0)) (hly : m "ly" = some (numVal ly))
      (levels : 0 < agg → ∃ L : ℕ, (∀ i : ℕ, i < L ↔ bz + depth * buffer < tz - i * agg) ∧ (0 < L → 0 ≤ density * lx * ly) ∧
        (d "migrate" = some (.leaf .none) → cs = (List.range L).flatMap fun i => (List.range (r.count (density * lx * ly) i)).map fun k =>
          ((placeIn x0 lx y0 ly (r.pos i k)).1, (placeIn x0 lx y0 ly (r.pos i k)).2, tz - i * agg)) ∧
        (d "migrate" ≠ some (.leaf .none) → ∃ mx sx my sy rest, d "migrate" = some (numList (mx :: sx :: my :: sy :: rest)) ∧
          (1 < L → 0 < r.count (density * lx * ly) 0 → 0 ≤ sx ∧ 0 ≤ sy) ∧
          cs = (List.range L).flatMap fun i => (List.range (r.count (density * lx * ly) 0)).map fun k =>
            ((placeIn x0 lx y0 ly (r.pos 0 k)).1 + (displacement mx sx my sy (fun l => r.move l k) i).1,
              (placeIn x0 lx y0 ly (r.pos 0 k)).2 + (displacement mx sx my sy (fun l => r.move l k) i).2, tz - i * agg)))

/-- The object is a trough of the section with centre `c`, on a grid of `nx` by `ny` columns: a half ellipsoid below the centre, turned by an angle of
the option `paleoflow`, whose sizes are the options `length`, `width` and `depth` times the factor of the trend at the centre. In a periodic domain
its copies count as well, if it is smaller than the domain. In any case it has no hollows: what lies above a point of it and below its centre belongs to it. The lag
is `lag_height` thick. -/
structure TroughAt (m d : Dict) (nx ny : ℕ) (c : ℝ × ℝ × ℝ) (o : GObj ℝ) : Prop where
  shape : ∃ (len wid dep : ℚ) (ang f : ℝ), d "length" = some (numVal len) ∧ d "width" = some (numVal wid) ∧ d "depth" = some (numVal dep) ∧
    Between d "paleoflow" ang ∧ TrendFactor m d c.2.2 f ∧ o.zmax = c.2.2 ∧ o.zmin = c.2.2 - f * dep ∧
    (0 < f * len → 0 < f * wid → 0 < f * dep →
      (∀ i j z, o.answer i j z ≠ none → o.zmin ≤ z ∧ z ≤ o.zmax ∧ ∀ z', z ≤ z' → z' ≤ o.zmax → o.answer i j z' ≠ none) ∧
      ∀ i < nx, ∀ j < ny, ∀ x y, CellCentre m i j x y →
      (m "periodic" = some (.leaf (.bool false)) → ∀ z, o.answer i j z ≠ none ↔
        z ≤ c.2.2 ∧ InEllipsoid c.1 c.2.1 c.2.2 (f * len / 2) (f * wid / 2) (f * dep) (ang * π / 180) x y z) ∧
      (m "periodic" = some (.leaf (.bool true)) → ∀ lx ly : ℚ, m "lx" = some (numVal lx) → m "ly" = some (numVal ly) →
        f * len < lx → f * wid < lx → f * len < ly → f * wid < ly → |x - c.1| ≤ 3 * lx / 2 → |y - c.2.1| ≤ 3 * ly / 2 →
        ∀ z, o.answer i j z ≠ none ↔ z ≤ c.2.2 ∧ ∃ a b : ℤ,
          InEllipsoid (c.1 + a * lx) (c.2.1 + b * ly) c.2.2 (f * len / 2) (f * wid / 2) (f * dep) (ang * π / 180) x y z))
  lag : ∃ (height : ℚ) (facies : ℤ), d "lag_height" = some (numVal height) ∧ d "lag_facies" = some (numVal facies) ∧
    ∀ i j z v, o.answer i j z = some v → z < o.zmin + height → v = (facies, some 0, some 0)

/-! ### Channels -/

/-- The sequence of directions along a channel: Ferguson's second order autoregressive process with the given disturbances. -/
structure Meander (h k eps : ℝ) (noise T : ℕ → ℝ) : Prop where
  zero : T 0 = 0
  one : T 1 = noise 1 * eps
  next : ∀ n, T (n + 2) - 2 * exp (-k * h) * cos (k * arcsin h) * T (n + 1) + exp (-2 * k * h) * T n = noise (n + 2) * eps

/-- The value of a sequence between its entries. -/
noncomputable def between (T : ℕ → ℝ) (t : ℝ) : ℝ := (1 - (t - ⌊t⌋₊)) * T ⌊t⌋₊ + (t - ⌊t⌋₊) * T (⌊t⌋₊ + 1)

/-- How far channel `i` on level `l` starts to the left of the line in direction `ang` through the centre: anywhere in the width `W` of the domain on the
first level, at most `mig` away from the place on the level above on the others. -/
noncomputable def lateral (W mig : ℝ) (r : ObjRandoms) (i : ℕ) : ℕ → ℝ
  | 0 => -(W / 2) + W * r.start i
  | l + 1 => lateral W mig r i l - (-mig + 2 * mig * r.mig l i)

/-- The centreline of a channel, number `n` of its AE and number `i` on level `l`: points at distances of `ds` (increased by 10⁻¹⁰ against division by
zero), whose directions, picked from the sequence above, have the mean `flow_angle`. It starts half a width upstream of the domain, if the domain begins
at the origin. Only the points less than a width away from the domain, in x-direction, are kept. For `|h| > 1` the arcus sine is not a number and
nothing is said. -/
structure Centreline (m d : Dict) (r : ObjRandoms) (l i n : ℕ) (pts : List CPoint) : Prop where
  curve : ∃ h k ds eps flow mig width x0 lx y0 ly : ℚ, d "h" = some (numVal h) ∧ d "k" = some (numVal k) ∧ d "ds" = some (numVal ds) ∧
    d "eps_factor" = some (numVal eps) ∧ d "flow_angle" = some (numVal flow) ∧ d "mig" = some (numVal mig) ∧ d "width" = some (numVal width) ∧
    m "x0" = some (numVal x0) ∧ m "lx" = some (numVal lx) ∧ m "y0" = some (numVal y0) ∧ m "ly" = some (numVal ly) ∧
    (|h| ≤ 1 → ∀ ang : ℝ, ang = flow * π / 180 → ∀ len : ℝ, len = |lx * cos ang| + |ly * sin ang| → ∀ step : ℝ, step = ds + 1 / 10 ^ 10 →
    ∃ (T : ℕ → ℝ) (picks : List ℕ) (turn : ℝ) (φ : List ℝ) (whole : List CPoint), Meander h k eps (r.noise n) T ∧
      picks.head? = some 0 ∧ picks.Pairwise (· < ·) ∧ (∀ j ∈ picks, j < ⌈len * 2 / step⌉.toNat) ∧
      φ = picks.map (fun j : ℕ => between T (j / 100) + turn) ∧ φ.sum / φ.length = ang ∧ whole.length = φ.length ∧
      (∃ q, whole[0]? = some q ∧
        q.x = (x0 + lx) / 2 - (len + width) / 2 * cos ang - lateral (|lx * sin ang| + |ly * cos ang|) mig r i l * sin ang ∧
        q.y = (y0 + ly) / 2 - (len + width) / 2 * sin ang + lateral (|lx * sin ang| + |ly * cos ang|) mig r i l * cos ang) ∧
      (∀ (j : ℕ) q, whole[j]? = some q → ∃ a, φ[j]? = some a ∧ q.vx = step * cos a ∧ q.vy = step * sin a) ∧
      (∀ (j : ℕ) q q', whole[j]? = some q → whole[j + 1]? = some q' → q'.x = q.x + q.vx ∧ q'.y = q.y + q.vy) ∧
      List.Sublist pts whole ∧ ∀ q, q ∈ pts ↔ q ∈ whole ∧ x0 - width ≤ q.x ∧ q.x ≤ x0 + lx + width)

/-- The object is a channel of the section, number `n` of its AE and number `i` on level `l`, with its top at `top`: it lies below `top` and above
the parabola that is `width` wide at the top and `depth` deep. Cells that the test skips are not in it; the lag is `lag_height` thick. -/
structure ChannelAt (m d : Dict) (r : ObjRandoms) (nx ny l i n : ℕ) (top : ℝ) (o : GObj ℝ) : Prop where
  shape : ∃ (wid dep : ℚ) (pts : List CPoint), d "width" = some (numVal wid) ∧ d "depth" = some (numVal dep) ∧ o.zmax = top ∧ o.zmin = top - dep ∧
    Centreline m d r l i n pts ∧ (0 < wid → wid < 2 * 10 ^ 50 → 0 < dep → ∀ i < nx, ∀ j < ny, ∀ x y, CellCentre m i j x y → ∀ z,
      o.answer i j z ≠ none ↔ r.skip n i j z = false ∧ InChannel pts top wid dep x y z)
  lag : ∃ (height : ℚ) (facies : ℤ), d "lag_height" = some (numVal height) ∧ d "lag_facies" = some (numVal facies) ∧
    ∀ i j z v, o.answer i j z = some v → z < o.zmin + height → v = (facies, some 0, some 0)

/-- The channels of an AE, whose surfaces have the means `tz` and `bz`: `channel_no` on each level, the levels being `agg` apart, from `agg` below the
mean of the AE's top down to `depth * buffer` above the mean of its bottom. -/
structure Channels (m d : Dict) (r : ObjRandoms) (nx ny : ℕ) (tz bz : ℝ) (os : List (GObj ℝ)) : Prop where
  trend : d "size_ztrend" = some (.leaf .none)
  levels : ∃ (no L : ℕ) (agg depth buffer : ℚ), d "channel_no" = some (numVal no) ∧ d "agg" = some (numVal agg) ∧ d "depth" = some (numVal depth) ∧
    d "buffer" = some (numVal buffer) ∧ (∀ l < L, bz + depth * buffer < tz - (l + 1) * agg) ∧ tz - (L + 1) * agg ≤ bz + depth * buffer ∧
    os.length = L * no ∧ ∀ l < L, ∀ i < no, ∃ o, os[l * no + i]? = some o ∧ ChannelAt m d r nx ny l i (l * no + i) (tz - (l + 1) * agg) o

/-! ### Sheets -/

/-- The factor of the vertical trend of sheets at elevation `z`: as for troughs, but constant below and above the domain. -/
inductive SheetFactor (m d : Dict) (z f : ℝ) : Prop
  | constant (none : d "size_ztrend" = some (.leaf .none)) (one : f = 1)
  | linear (f0 f1 z0 lz : ℚ) (trend : d "size_ztrend" = some (numList [f0, f1])) (bottom : m "z0" = some (numVal z0))
      (height : m "lz" = some (numVal lz)) (value : 0 < lz → f = f0 + (f1 - f0) * max 0 (min 1 ((z - z0) / lz)))

/-- The sheets of an AE between the surfaces `B` and `T`: a single one for a `lens_thickness` of -1. Otherwise they are cut by horizontal planes, `lens_thickness`
times the factor of the trend apart, below the elevation `zhi`, as long as the planes are above the elevation `zlo`. -/
structure Sheets (m d : Dict) (nx ny : ℕ) (zlo zhi : ℝ) (T B : ℕ → ℕ → ℝ) (os : List (GObj ℝ)) : Prop where
  cut : ∃ lens : ℚ, d "lens_thickness" = some (numVal lens) ∧
    (lens = -1 → ∃ o, os = [o] ∧ ∀ i < nx, ∀ j < ny, ∀ z, o.answer i j z ≠ none ↔ B i j ≤ z ∧ z ≤ T i j) ∧
    (lens ≠ -1 → ∃ f, SheetFactor m d ((zlo + zhi) / 2) f ∧ (0 < lens * f →
      (∀ k : ℕ, k + 1 < os.length ↔ zlo < zhi - (k + 1) * (lens * f)) ∧
      ∀ i < nx, ∀ j < ny, ∀ (k : ℕ) o, os[k]? = some o → ∀ z, o.answer i j z ≠ none ↔
        sheetBoundary os.length zhi (lens * f) (T i j) (B i j) (k + 1) ≤ z ∧ z ≤ sheetBoundary os.length zhi (lens * f) (T i j) (B i j) k))

end Hyvr.Spec
