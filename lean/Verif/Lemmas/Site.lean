import Verif.Spec.Site
import Verif.Lemmas.Run
import Verif.Props.Inside
import Verif.Props.Ferguson

/-!
How the AEs of a model generated with objects came about (C105, C106, C107).
-/

namespace Hyvr

open Py Spec Real

/-- The grid as it was read. -/
structure GridFrom (m : Dict) (g : Grid) : Prop where
  x : ∃ x0 dx lx : ℚ, m "x0" = some (numVal x0) ∧ m "dx" = some (numVal dx) ∧ m "lx" = some (numVal lx) ∧ g.x0 = x0 ∧ g.dx = dx ∧ g.lx = lx
  y : ∃ y0 dy ly : ℚ, m "y0" = some (numVal y0) ∧ m "dy" = some (numVal dy) ∧ m "ly" = some (numVal ly) ∧ g.y0 = y0 ∧ g.dy = dy ∧ g.ly = ly
  z : ∃ z0 lz : ℚ, m "z0" = some (numVal z0) ∧ m "lz" = some (numVal lz) ∧ g.z0 = z0 ∧ g.lz = lz
  periodic : m "periodic" = some (.leaf (.bool g.periodic))

theorem boolOf_ok {v : Val} {b : Bool} (h : boolOf v = .ok b) : v = .leaf (.bool b) := by
  unfold boolOf at h
  split at h
  · cases h
    rfl
  · cases h

theorem readGrid_from {m : Dict} {g : Grid} (h : readGrid m = .ok g) : GridFrom m g := by
  simp only [readGrid, bind_ok, pure_ok, dget_ok] at h
  obtain ⟨v1, h1, x0, hx0, v2, h2, y0, hy0, v3, h3, z0, hz0, v4, h4, dx, hdx, v5, h5, dy, hdy, v6, h6, dz, hdz, v7, h7, lx, hlx, v8, h8, ly, hly,
    v9, h9, lz, hlz, v10, h10, b, hb, rfl⟩ := h
  rw [numOf_ok hx0] at h1
  rw [numOf_ok hy0] at h2
  rw [numOf_ok hz0] at h3
  rw [numOf_ok hdx] at h4
  rw [numOf_ok hdy] at h5
  rw [numOf_ok hlx] at h7
  rw [numOf_ok hly] at h8
  rw [numOf_ok hlz] at h9
  rw [boolOf_ok hb] at h10
  exact ⟨⟨x0, dx, lx, h1, h4, h7, rfl, rfl, rfl⟩, ⟨y0, dy, ly, h2, h5, h8, rfl, rfl, rfl⟩, ⟨z0, lz, h3, h9, rfl, rfl⟩, h10⟩

theorem numVal_some_inj {m : Dict} {k : String} {a b : ℚ} (h : m k = some (numVal a)) (h' : m k = some (numVal b)) : a = b := by
  rw [h] at h'
  cases h'
  rfl

theorem axis_cells (x0 dx lx : ℚ) : (Py.arange ((x0 : ℝ) + dx / 2) (x0 + lx) dx).length = ⌈(lx - dx / 2) / dx⌉.toNat := by
  rw [arange_length, show ((x0 : ℝ) + lx - (x0 + dx / 2)) / dx = (((lx - dx / 2) / dx : ℚ) : ℝ) by push_cast; ring, Rat.ceil_cast]

theorem coord_axis {x0 dx lx : ℝ} {i : ℕ} (hi : i < (Py.arange (x0 + dx / 2) (x0 + lx) dx).length) :
    coord (Py.arange (x0 + dx / 2) (x0 + lx) dx) i = x0 + (i + 1 / 2) * dx := by
  have := arange_getElem? (x0 + dx / 2) (x0 + lx) dx i
  rw [arange_length] at hi
  rw [if_pos hi] at this
  unfold coord
  rw [List.getD_eq_getElem?_getD, this]
  simp only [Option.getD_some]
  ring

theorem cell_coord {m : Dict} {g : Grid} (h : GridFrom m g) {i j : ℕ} (hi : i < g.nx) (hj : j < g.ny) {x y : ℝ} (hc : CellCentre m i j x y) :
    coord g.x i = x ∧ coord g.y j = y := by
  obtain ⟨x0, dx, y0, dy, h1, h2, h3, h4, rfl, rfl⟩ := hc
  obtain ⟨x0', dx', lx, e1, e2, -, e3, e4, -⟩ := h.x
  obtain ⟨y0', dy', ly, e5, e6, -, e7, e8, -⟩ := h.y
  cases numVal_some_inj h1 e1
  cases numVal_some_inj h2 e2
  cases numVal_some_inj h3 e5
  cases numVal_some_inj h4 e6
  rw [← e3, ← e4, ← e7, ← e8]
  exact ⟨coord_axis hi, coord_axis hj⟩

/-- An AE of a model generated with objects, traced back to the generation of the AE. -/
theorem ae_parts {C : Convs} {p : Ini} {P : Parsed} (h : parseInifile C p = .ok P) {ids : List (String × ℕ)} {r : Randoms ℝ}
    {o : ℕ → ℕ → ObjRandoms} {d : ℕ → StratumDraw ℝ} {m : GenModel ℝ} {cms' : Contacts ℝ} (hr : generateObjects P ids r o d = .ok (m, cms')) :
    ∃ g shapes, readGrid P.model = .ok g ∧ readShapes P = .ok shapes ∧ m.heap.nx = g.nx ∧ m.heap.ny = g.ny ∧
      ∀ si s n a, m.strata[si]? = some s → s.aes[n]? = some a → ∃ (e : Element) (i : ℕ) (t : ElemParams ℚ) (sp : StratumParams ℝ) (gz : GridZ ℝ)
        (a0 : AEReal ℝ) (dd : AEDraw ℝ) (Q : Prop), (a.name, e) ∈ P.elements ∧ t.name = a.name ∧ readElement a.name i e = .ok t ∧
        AERun gz sp t.cast dd m.heap Q a0 ∧ AESame a0 a ∧ dd.objs = objectsOf g shapes (o si n) ∧ dd.sheet = sheetOf g shapes (o si n) ∧
        gz.z0 = g.z0 ∧ gz.lz = g.lz ∧
        ((0 < n ∨ si = 0 ∨ ∃ s', m.strata[si - 1]? = some s' ∧ s'.aes ≠ []) → 0 < m.heap.nx → 0 < m.heap.ny → Q) := by
  obtain ⟨g, shapes, hgr, hsh, hgen⟩ := generateObjects_ok hr
  obtain ⟨I, names, hI, hnames, hin, hg, hlen, hall⟩ := stratum_parts h hgen
  obtain ⟨hnx, hny, -⟩ := generateModel_spec hg
  have gf := readGrid_from hgr
  refine ⟨g, shapes, hgr, hsh, ?_, ?_, fun si s n a hs hn => ?_⟩
  · obtain ⟨dx, lx, x1, x2, x3⟩ := hin.nx
    obtain ⟨x0, dx', lx', -, e1, e2, e3, e4, e5⟩ := gf.x
    cases numVal_some_inj x1 e1
    cases numVal_some_inj x2 e2
    rw [hnx, x3, Grid.nx, Grid.x, e3, e4, e5, axis_cells]
  · obtain ⟨dx, lx, x1, x2, x3⟩ := hin.ny
    obtain ⟨x0, dx', lx', -, e1, e2, e3, e4, e5⟩ := gf.y
    cases numVal_some_inj x1 e1
    cases numVal_some_inj x2 e2
    rw [hny, x3, Grid.ny, Grid.y, e3, e4, e5, axis_cells]
  · obtain ⟨hsi, -⟩ := hall si s hs
    obtain ⟨sr, hsr, hfrom, hp, ht⟩ := hin.reads si hsi
    have hd : I.draws r (withObjects g shapes o d) si = drawStratum sr r si (withObjects g shapes o d si) := by
      unfold GenInput.draws
      rw [hsr]
    obtain ⟨Q, ⟨sp, types, first, h1, h2, h3, h4⟩, q1, q2⟩ := generateModel_runs hg hs
    simp only [StrataDict.cast] at h1 h2
    rw [← List.map_reverse, List.getElem?_map, hp] at h1
    cases h1
    rw [← List.map_reverse, List.getElem?_map, ht] at h2
    cases h2
    obtain ⟨t', a0, t1, t2, hrun, hsame⟩ := h4 n a hn
    have hmem : t' ∈ sr.types.map ElemParams.cast := by
      cases n with
      | zero => rw [t1 rfl]; exact List.mem_of_getElem? h3
      | succ n => exact List.mem_of_getElem? (t2 n rfl)
    obtain ⟨t, htm, rfl⟩ := List.mem_map.1 hmem
    obtain ⟨e, i, he, -, -, hre⟩ := hfrom.elements t htm
    have hname : t.name = a.name := by
      obtain ⟨_, _, -, -, -, -, -, -, -, -, hgenAE⟩ := hrun.run
      obtain ⟨t', ht', _, hn', -⟩ := (genAE_made (types := [t.cast]) (draws := fun _ => (I.draws r (withObjects g shapes o d) si).aes n) (n := 0)
        (List.mem_singleton.2 rfl) hgenAE).made
      cases List.mem_singleton.1 ht'
      rw [hsame.name, hn']
      rfl
    rw [hname] at he hre
    obtain ⟨z0, lz, z1, z2, z3, z4⟩ := gf.z
    refine ⟨e, i, t, sr.params.cast, I.grid.cast, a0, _, _, he, hname, hre, hrun, hsame, ?_, ?_, ?_, ?_, ?_⟩
    · rw [hd]; rfl
    · rw [hd]; rfl
    · rw [z3, numVal_some_inj z1 hin.z0]; rfl
    · rw [z4, numVal_some_inj z2 hin.lz]; rfl
    · rintro (h0 | h0 | ⟨s', hs', hne⟩) hx hy
      · exact Or.inl h0
      · exact Or.inr (q1 h0 (by rw [← hnx]; exact hx) (by rw [← hny]; exact hy))
      · rcases Nat.eq_zero_or_pos si with h0 | h0
        · exact Or.inr (q1 h0 (by rw [← hnx]; exact hx) (by rw [← hny]; exact hy))
        · exact Or.inr (q2 (si - 1) s' (by omega) hs' hne)

/-! ### Lists of objects -/

theorem numbered_get {β γ : Type} (f : ℕ → β → γ) (n : ℕ) (l : List β) (k : ℕ) : (numbered f n l)[k]? = l[k]?.map (f (n + k)) := by
  induction l generalizing n k with
  | nil => simp [numbered]
  | cons b rest ih =>
    cases k with
    | zero => simp [numbered]
    | succ k => simp only [numbered, List.getElem?_cons_succ, ih]; congr 2; omega

theorem numbered_length {β γ : Type} (f : ℕ → β → γ) (n : ℕ) (l : List β) : (numbered f n l).length = l.length := by
  induction l generalizing n with
  | nil => rfl
  | cons b rest ih => simp [numbered, ih]

theorem forall₂_of_get {β γ : Type} {R : β → γ → Prop} {l : List β} {l' : List γ} (hl : l.length = l'.length)
    (h : ∀ (k : ℕ) b, l'[k]? = some b → ∃ a, l[k]? = some a ∧ R a b) : List.Forall₂ R l l' := by
  rw [List.forall₂_iff_get]
  refine ⟨hl, fun k h1 h2 => ?_⟩
  obtain ⟨a, ha, hr⟩ := h k _ (List.getElem?_eq_getElem h2)
  rw [List.getElem?_eq_getElem h1] at ha
  cases ha
  exact hr

/-! ### Troughs -/

theorem Trough.test_no_error {p : TroughParams} {d : TroughDraw} {x y z a b c alpha : ℝ} {t : Trough}
    (ht : Trough.new p d x y z a b c alpha = .ok t) (g : Grid) (x' y' z' : ℝ) (e : PyErr) : t.test g x' y' z' ≠ .error e := by
  intro h
  have hne : t.test g x' y' z' ≠ .miss := by rw [h]; simp
  rw [Trough.test_inside hne] at h
  split_ifs at h
  have key : ∀ tb n az dp, tableHit tb n az dp ≠ (.error e : Answer ℝ) := by
    intro tb n az dp
    unfold tableHit
    split_ifs <;> try split
    all_goals simp
  have hm := Trough.new_made ht
  unfold Trough.inner at h
  dsimp only at h
  cases hm with
  | massive f0 hf => rw [if_pos rfl] at h; cases h
  | dip table htab =>
    rw [if_neg (by simp), if_pos rfl] at h
    exact key _ _ _ _ h
  | bulb f0 hf =>
    rw [if_neg (by simp), if_neg (by simp), if_pos (by simp), if_pos rfl] at h
    cases h
  | bulbSets table htab =>
    rw [if_neg (by simp), if_neg (by simp), if_pos (by simp), if_neg (by simp)] at h
    exact key _ _ _ _ h

theorem toCell_ne_none {stray : ℤ → ℤ × Option ℝ × Option ℝ} {A : Answer ℝ} (h : ∀ e, A ≠ .error e) : A.toCell stray ≠ none ↔ A ≠ .miss := by
  cases A with
  | miss => simp [Answer.toCell]
  | hit f az dp => simp [Answer.toCell]
  | outside n => simp [Answer.toCell]
  | error e => exact absurd rfl (h e)

theorem trend_factor {m d : Dict} {g : Grid} (hg : GridFrom m g) {e : ErosiveRead} (he : ErosiveFrom d e) (z : ℝ) :
    TrendFactor m d z (match (e.sizeZtrend.map fun f => ((f.1 : ℝ), (f.2 : ℝ))) with
      | some (f0, f1) => f0 + (z - g.z0) * (f1 - f0) / g.lz
      | none => 1) := by
  obtain ⟨z0, lz, h1, h2, h3, h4⟩ := hg.z
  cases hs : e.sizeZtrend with
  | none => exact .constant (he.trend.2 hs) rfl
  | some f =>
    refine .linear f.1 f.2 z0 lz (he.factors _ _ (by rw [hs])) h1 h2 fun hne => ?_
    simp only [Option.map_some, h3, h4]
    have : (lz : ℝ) ≠ 0 := by exact_mod_cast hne
    field_simp

theorem trough_at {m d : Dict} {g : Grid} (hg : GridFrom m g) {p : TroughRead} (hp : TroughFrom d p) {r : ObjRandoms} (hu : UniformObjs r) {n : ℕ}
    {q : ℝ × ℝ × ℝ} {t : Trough} (ht : Trough.new p.params (r.trough p n) q.1 q.2.1 q.2.2 (troughAxes p.params g.z0 g.lz q.2.2).1
      (troughAxes p.params g.z0 g.lz q.2.2).2.1 (troughAxes p.params g.z0 g.lz q.2.2).2.2 (r.trough p n).alpha = .ok t)
    (stray : ℤ → ℤ × Option ℝ × Option ℝ) : TroughAt m d g.nx g.ny q (t.toObj g stray) := by
  obtain ⟨F, hF, e1, e2, e3⟩ : ∃ F, TrendFactor m d q.2.2 F ∧ (troughAxes p.params g.z0 g.lz q.2.2).1 = F * (p.length : ℝ) / 2 ∧
      (troughAxes p.params g.z0 g.lz q.2.2).2.1 = F * (p.erosive.width : ℝ) / 2 ∧
      (troughAxes p.params g.z0 g.lz q.2.2).2.2 = F * (p.erosive.depth : ℝ) :=
    ⟨_, trend_factor hg hp.erosive q.2.2, by rw [mul_comm]; rfl, by rw [mul_comm]; rfl, by rw [mul_comm]; rfl⟩
  rw [e1, e2, e3] at ht
  have hB := (Trough.new_made ht).base
  have hal : Between d "paleoflow" (r.trough p n).alpha := between_uniform hp.paleoflow (hu.alpha n).1 (hu.alpha n).2
  refine ⟨⟨p.length, p.erosive.width, p.erosive.depth, (r.trough p n).alpha, F, hp.length, hp.erosive.width, hp.erosive.depth, hal,
    hF, hB.hzmax, ?_, fun h1 h2 h3 => ⟨fun i j z hz => ?_, fun i hi j hj x y hc => ?_⟩⟩, p.erosive.lagHeight, p.erosive.lagFacies,
    hp.erosive.lagHeight, hp.erosive.lagFacies, ?_⟩
  · show t.zmin = _
    rw [hB.hzmin]
  · have hm : ∀ z, (t.toObj g stray).answer i j z ≠ none ↔ t.test g (coord g.x i) (coord g.y j) z ≠ .miss := fun z =>
      toCell_ne_none (Trough.test_no_error ht g _ _ z)
    rw [hm] at hz
    obtain ⟨r1, r2⟩ := C19_range ht (by linarith) (by linarith) h3 g _ _ _ hz
    refine ⟨r1, r2, fun z' hzz hz' => ?_⟩
    rw [hm]
    have hz' : z' ≤ q.2.2 := by rw [← hB.hzmax]; exact hz'
    rw [hB.accept (by linarith) (by linarith) h3] at hz ⊢
    obtain ⟨-, u, v, w, hw, e4, e5, e6⟩ := hz
    refine ⟨hz', u, v, (z' - q.2.2) / (F * p.erosive.depth), ?_, e4, e5, by rw [mul_div_cancel₀ _ h3.ne']; ring⟩
    have hw' : w = (z - q.2.2) / (F * p.erosive.depth) := by rw [e6, add_sub_cancel_left, mul_div_cancel_left₀ _ h3.ne']
    have hle : w ≤ (z' - q.2.2) / (F * p.erosive.depth) := by
      rw [hw']
      exact div_le_div_of_nonneg_right (by linarith) h3.le
    have h0 : (z' - q.2.2) / (F * p.erosive.depth) ≤ 0 := div_nonpos_of_nonpos_of_nonneg (by linarith) h3.le
    nlinarith
  · obtain ⟨hx, hy⟩ := cell_coord hg hi hj hc
    have hm : ∀ z, (t.toObj g stray).answer i j z ≠ none ↔ t.test g x y z ≠ .miss := by
      intro z
      show (t.test g (coord g.x i) (coord g.y j) z).toCell stray ≠ none ↔ _
      rw [hx, hy, toCell_ne_none (Trough.test_no_error ht g x y z)]
    constructor
    · intro hper z
      rw [hm]
      refine C19_membership ht (by linarith) (by linarith) h3 g ?_ x y z
      have := hg.periodic
      rw [hper] at this
      simpa using this.symm
    · intro hper lx ly hlx hly w1 w2 w3 w4 b1 b2 z
      rw [hm]
      obtain ⟨_, _, lx', -, -, e4, -, -, e5⟩ := hg.x
      obtain ⟨_, _, ly', -, -, e6, -, -, e7⟩ := hg.y
      cases numVal_some_inj hlx e4
      cases numVal_some_inj hly e6
      rw [← e5] at w1 w2 b1 ⊢
      rw [← e7] at w3 w4 b2 ⊢
      refine C20_wrap_partial ht (by linarith) (by linarith) h3 g ?_ x y z (max_lt (by linarith) (by linarith)) (max_lt (by linarith) (by linarith)) b1 b2
      have := hg.periodic
      rw [hper] at this
      simpa using this.symm
  · intro i j z v hv hz
    have hne : t.test g (coord g.x i) (coord g.y j) z ≠ .miss := by
      intro hmiss
      have : (t.toObj g stray).answer i j z = (t.test g (coord g.x i) (coord g.y j) z).toCell stray := rfl
      rw [this, hmiss] at hv
      cases hv
    have := (C21_trough ht g (coord g.x i) (coord g.y j) z hne).1 (by
      have : z < t.zmin + p.erosive.lagHeight := hz
      rw [hB.hzmin] at this
      show z - _ < (p.erosive.lagHeight : ℝ)
      linarith)
    have hv' : (t.test g (coord g.x i) (coord g.y j) z).toCell stray = some v := hv
    rw [this] at hv'
    cases hv'
    rfl

theorem drift_displacement {g : Grid} {r : ObjRandoms} {p : TroughRead} {mg : (ℚ × ℚ) × (ℚ × ℚ)} (hm : p.migrate = some mg) (k i : ℕ) :
    drift (r.place p g).move k i = displacement mg.1.1 mg.1.2 mg.2.1 mg.2.2 (fun l => r.move l k) i := by
  induction i with
  | zero => simp [drift, displacement]
  | succ i ih =>
    rw [drift_succ, ih]
    simp only [displacement, ObjRandoms.place, hm]

theorem uniform_place {x0 lx y0 ly : ℚ} {g : Grid} (hx0 : g.x0 = x0) (hlx : g.lx = lx) (hy0 : g.y0 = y0) (hly : g.ly = ly) (r : ObjRandoms)
    (p : TroughRead) (i k : ℕ) : (r.place p g).pos i k = placeIn x0 lx y0 ly (r.pos i k) := by
  simp only [ObjRandoms.place, placeIn, uniform, Grid.xmax, Grid.ymax, hx0, hlx, hy0, hly]
  congr 1 <;> ring

theorem troughs_at {m d : Dict} {g : Grid} (hg : GridFrom m g) {p : TroughRead} (hp : TroughFrom d p) {r : ObjRandoms} (hu : UniformObjs r)
    {bottom top : Surface ℝ} {ts : List Trough} (h : placeTroughs p g r bottom top = .ok ts) :
    ∃ cs, Centres m d r top.zmean bottom.zmax cs ∧
      List.Forall₂ (TroughAt m d g.nx g.ny) cs (numbered (fun n => Trough.toObj g (r.stray n)) 0 ts) := by
  simp only [placeTroughs, bind_ok] at h
  obtain ⟨_, hguard, h⟩ := h
  obtain ⟨te, hte, hmk⟩ := generateTroughs_split h
  refine ⟨te, ?_, ?_⟩
  · cases hxyz : p.teXyz with
    | some pts =>
      have : p.params.teXyz = some (pts.map fun q => ((q.1 : ℝ), (q.2.1 : ℝ), (q.2.2 : ℝ))) := by simp [TroughRead.params, hxyz]
      rw [this] at hte
      obtain ⟨v, h1, h2, h3⟩ := hp.fixed pts hxyz
      exact .given v pts h1 h2 h3 hte
    | none =>
      have : p.params.teXyz = none := by simp [TroughRead.params, hxyz]
      rw [this] at hte
      dsimp only at hte
      obtain ⟨x0, dx, lx, x1, -, x2, x3, -, x4⟩ := hg.x
      obtain ⟨y0, dy, ly, y1, -, y2, y3, -, y4⟩ := hg.y
      refine .drawn p.erosive.agg p.erosive.depth p.erosive.buffer p.density x0 lx y0 ly (hp.free hxyz) hp.erosive.agg hp.erosive.depth
        hp.erosive.buffer hp.density x1 x2 y1 y2 fun hagg => ?_
      have hagg' : 0 < p.params.agg := by
        show (0 : ℝ) < (p.erosive.agg : ℝ)
        exact_mod_cast hagg
      unfold troughGuard at hguard
      rw [if_neg (by simp [hxyz]), if_neg (ne_of_gt hagg)] at hguard
      obtain ⟨L, hL, hlev⟩ := planesZ_eq (bz := bottom.zmax) (tz := top.zmean) hagg'
      have hlen : (planesZ p.params bottom.zmax top.zmean).length = L := by rw [hL]; simp
      rw [hlen] at hguard
      have hmean : 0 < L → 0 ≤ p.density * lx * ly := by
        intro h0
        by_contra hc
        rw [if_pos ⟨h0, by rw [x4, y4]; push_neg at hc; exact_mod_cast hc⟩] at hguard
        cases hguard
      refine ⟨L, hlev, hmean, fun hmig => ?_, fun hmig => ?_⟩
      · cases hmg : p.migrate with
        | some mg =>
          obtain ⟨rest, hr⟩ := hp.moves mg hmg
          rw [hr] at hmig
          cases hmig
        | none =>
          obtain ⟨L', hlev', hpos⟩ := C24_positions (p := p.params) (d := r.place p g) (bz := bottom.zmax) (tz := top.zmean) hagg'
            (by simp [TroughRead.params, hmg])
          have hLL : L' = L := by
            have h1 : ∀ i, i < L' ↔ i < L := fun i => (hlev' i).trans (hlev i).symm
            exact le_antisymm (not_lt.1 fun hc => absurd ((h1 L).1 hc) (lt_irrefl _)) (not_lt.1 fun hc => absurd ((h1 L').2 hc) (lt_irrefl _))
          rw [hpos] at hte
          cases hte
          rw [hLL]
          have hcount : (r.place p g).count = r.count (p.density * lx * ly) := by rw [← x4, ← y4]; rfl
          simp only [uniform_place x3 x4 y3 y4, hcount]
          rfl
      · cases hmg : p.migrate with
        | none => exact absurd (hp.still hmg) hmig
        | some mg =>
          obtain ⟨rest, hr⟩ := hp.moves mg hmg
          obtain ⟨L', hlev', hpos⟩ := C24_migration (p := p.params) (d := r.place p g) (bz := bottom.zmax) (tz := top.zmean) hagg'
            (by simp [TroughRead.params, hmg])
          have hLL : L' = L := by
            have h1 : ∀ i, i < L' ↔ i < L := fun i => (hlev' i).trans (hlev i).symm
            exact le_antisymm (not_lt.1 fun hc => absurd ((h1 L).1 hc) (lt_irrefl _)) (not_lt.1 fun hc => absurd ((h1 L').2 hc) (lt_irrefl _))
          rw [hpos] at hte
          cases hte
          refine ⟨mg.1.1, mg.1.2, mg.2.1, mg.2.2, rest, hr, fun h1 h2 => ?_, ?_⟩
          · rw [if_neg (fun hc => by
              have := hmean (by omega)
              have h2 : ((p.density : ℝ)) * g.lx * g.ly < 0 := hc.2
              rw [x4, y4] at h2
              exact absurd (by exact_mod_cast h2) (not_lt.2 this)), hmg] at hguard
            dsimp only at hguard
            by_contra hc
            rw [if_pos ⟨h1, by rw [x4, y4]; exact h2, by
              rw [not_and_or, not_le, not_le] at hc
              exact hc⟩] at hguard
            cases hguard
          · rw [hLL]
            have hcount : (r.place p g).count = r.count (p.density * lx * ly) := by rw [← x4, ← y4]; rfl
            simp only [uniform_place x3 x4 y3 y4, drift_displacement hmg, hcount]
            rfl
  · have hF := makeTroughs_spec hmk
    refine forall₂_of_get (by rw [numbered_length, hF.length_eq]) fun k o ho => ?_
    rw [numbered_get, Option.map_eq_some_iff] at ho
    obtain ⟨t, ht, rfl⟩ := ho
    obtain ⟨q, hq, hnew⟩ := makeTroughs_get hmk ht
    exact ⟨q, hq, trough_at hg hp hu hnew _⟩

/-! ### Channels -/

theorem channelsOnLevel_at {p : ChannelParams} {g : Grid} {draws : ℕ → ChannelDraw} {curve : ℕ → ℝ → Except PyErr (List CPoint)} {z : ℝ} {m n : ℕ}
    {cs : List Channel} (h : channelsOnLevel p g draws curve z m n = .ok cs) : cs.length = m ∧ ∀ k < m, ∃ c pts, cs[k]? = some c ∧
      curve (n + k) (p.width * channelFactor p g z) = .ok pts ∧
      Channel.new p (draws (n + k)) g pts z (p.width * channelFactor p g z) (p.depth * channelFactor p g z) = .ok c := by
  induction m generalizing n cs with
  | zero =>
    unfold channelsOnLevel at h
    cases h
    exact ⟨rfl, fun k hk => absurd hk (Nat.not_lt_zero k)⟩
  | succ m ih =>
    unfold channelsOnLevel at h
    simp only [bind_ok, pure_ok] at h
    obtain ⟨pts, hpts, c0, hc, rest, hr, rfl⟩ := h
    obtain ⟨h1, h2⟩ := ih hr
    refine ⟨by rw [List.length_cons, h1], fun k hk => ?_⟩
    cases k with
    | zero => exact ⟨c0, pts, rfl, hpts, hc⟩
    | succ k =>
      rw [show n + (k + 1) = n + 1 + k by omega]
      obtain ⟨c, pts, h3, h4⟩ := h2 k (by omega)
      exact ⟨c, pts, by simpa using h3, h4⟩

theorem channelLevels_at {p : ChannelParams} {g : Grid} {draws : ℕ → ChannelDraw} {curve : ℕ → ℝ → Except PyErr (List CPoint)} {zb : ℝ} {fuel : ℕ}
    {z : ℝ} {n : ℕ} {cs : List Channel} (h : channelLevels p g draws curve zb fuel z n = some (.ok cs)) :
    ∃ L : ℕ, (∀ l < L, zb < z - l * p.agg) ∧ z - L * p.agg ≤ zb ∧ cs.length = L * p.channelNo ∧ ∀ l < L, ∀ i < p.channelNo, ∃ c pts,
      cs[l * p.channelNo + i]? = some c ∧ curve (n + (l * p.channelNo + i)) (p.width * channelFactor p g (z - l * p.agg)) = .ok pts ∧
      Channel.new p (draws (n + (l * p.channelNo + i))) g pts (z - l * p.agg) (p.width * channelFactor p g (z - l * p.agg))
        (p.depth * channelFactor p g (z - l * p.agg)) = .ok c := by
  have stop : ∀ (n : ℕ) (z : ℝ), ¬ z > zb → ∃ L : ℕ, (∀ l < L, zb < z - l * p.agg) ∧ z - L * p.agg ≤ zb ∧ ([] : List Channel).length = L * p.channelNo ∧
      ∀ l < L, ∀ i < p.channelNo, ∃ c pts, ([] : List Channel)[l * p.channelNo + i]? = some c ∧
      curve (n + (l * p.channelNo + i)) (p.width * channelFactor p g (z - l * p.agg)) = .ok pts ∧
      Channel.new p (draws (n + (l * p.channelNo + i))) g pts (z - l * p.agg) (p.width * channelFactor p g (z - l * p.agg))
        (p.depth * channelFactor p g (z - l * p.agg)) = .ok c := by
    intro n z hz
    exact ⟨0, fun l hl => absurd hl (Nat.not_lt_zero l), by simpa using hz, by simp, fun l hl => absurd hl (Nat.not_lt_zero l)⟩
  induction fuel generalizing z n cs with
  | zero =>
    unfold channelLevels at h
    split_ifs at h with hz
    cases h
    exact stop n z hz
  | succ fuel ih =>
    unfold channelLevels at h
    split_ifs at h with hz
    · cases h1 : channelsOnLevel p g draws curve z p.channelNo n with
      | error e => rw [h1] at h; simp at h
      | ok cs1 =>
        rw [h1] at h
        simp only at h
        obtain ⟨hlen, hat⟩ := channelsOnLevel_at h1
        cases h2 : channelLevels p g draws curve zb fuel (z - p.agg) (n + p.channelNo) with
        | none => rw [h2] at h; cases h
        | some e =>
          rw [h2] at h
          cases e with
          | error e => cases h
          | ok rest =>
            simp only [Option.some.injEq, Except.ok.injEq] at h
            subst h
            obtain ⟨L, i1, i2, i3, i4⟩ := ih h2
            have shift : ∀ l : ℕ, z - ((l + 1 : ℕ) : ℝ) * p.agg = z - p.agg - l * p.agg := fun l => by push_cast; ring
            refine ⟨L + 1, fun l hl => ?_, ?_, ?_, fun l hl i hi => ?_⟩
            · cases l with
              | zero => simpa using hz
              | succ l => rw [shift]; exact i1 l (by omega)
            · rw [shift]; exact i2
            · rw [List.length_append, hlen, i3, Nat.succ_mul, Nat.add_comm]
            · cases l with
              | zero =>
                obtain ⟨c, pts, h3, h4⟩ := hat i hi
                refine ⟨c, pts, ?_, ?_⟩
                · rw [Nat.zero_mul, Nat.zero_add, List.getElem?_append_left (by omega)]
                  exact h3
                · simpa using h4
              | succ l =>
                obtain ⟨c, pts, h3, h4⟩ := i4 l (by omega) i hi
                refine ⟨c, pts, ?_, ?_⟩
                · rw [List.getElem?_append_right (by rw [hlen, Nat.succ_mul]; omega), hlen,
                    show (l + 1) * p.channelNo + i - p.channelNo = l * p.channelNo + i by rw [Nat.succ_mul]; omega]
                  exact h3
                · rw [shift, show n + ((l + 1) * p.channelNo + i) = n + p.channelNo + (l * p.channelNo + i) by rw [Nat.succ_mul]; omega]
                  exact h4
    · cases h
      exact stop n z hz

theorem theta_meander (noise : ℕ → ℝ) (eps k h : ℝ) : Meander h k eps noise (theta noise eps k h) := by
  have h0 : theta noise eps k h 0 = 0 := by simp [theta, thetaAR2]
  refine ⟨h0, ?_, fun n => ?_⟩
  · rw [theta, h0]
    simp [thetaAR2]
  · have := theta_rec noise eps k h n
    linarith

theorem ystart_lateral {W mig : ℝ} {r : ObjRandoms} {i l : ℕ} :
    ystartAt (fun i => uniform (-(W / 2)) (W / 2) (r.start i)) (some fun l i => uniform (-mig) mig (r.mig l i)) i l = lateral W mig r i l := by
  induction l with
  | zero => simp only [ystartAt, lateral, uniform]; ring
  | succ l ih =>
    rw [ystartAt]
    rw [ih, lateral]
    unfold uniform
    ring

theorem interp_between (T : ℕ → ℝ) {nc j : ℕ} (hj : j < nc) : interpNodes ((List.range nc).map T) (j / 100) = between T (j / 100) := by
  have get : ∀ k < nc, ((List.range nc).map T).getD k 0 = T k := by
    intro k hk
    simp [List.getD_eq_getElem?_getD, hk]
  unfold interpNodes between
  rw [List.length_map, List.length_range]
  by_cases h0 : j = 0
  · subst h0
    rw [if_pos (by simp), get 0 hj]
    simp
  · have h1 : (1 : ℝ) ≤ j := by exact_mod_cast Nat.one_le_iff_ne_zero.2 h0
    have h2 : (j : ℝ) + 1 ≤ nc := by exact_mod_cast hj
    rw [if_neg (by push Not; positivity), if_neg (by push Not; linarith)]
    have h3 : ⌊(j : ℝ) / 100⌋₊ + 1 < nc := by
      have : ((⌊(j : ℝ) / 100⌋₊ : ℕ) : ℝ) ≤ j / 100 := Nat.floor_le (by positivity)
      have h4 : ((⌊(j : ℝ) / 100⌋₊ + 1 : ℕ) : ℝ) < nc := by push_cast; linarith
      exact_mod_cast h4
    rw [get _ (by omega), get _ h3]
    ring

theorem directions_picks {h k ds eps len : ℝ} {noise : ℕ → ℝ} {l : List (ℝ × ℝ)} (hd : fergusonDirections h k ds eps len noise = some (.ok l)) :
    ∃ picks : List ℕ, picks.head? = some 0 ∧ picks.Pairwise (· < ·) ∧ (∀ j ∈ picks, j < ⌈len * 2 / (ds + 1 / 10 ^ 10)⌉.toNat) ∧
      l.map Prod.snd = picks.map fun j : ℕ => between (theta noise eps k h) (j / 100) := by
  unfold fergusonDirections at hd
  have hnc : (arange 0 (len * 2) (ds + 1 / 10 ^ 10)).length = ⌈len * 2 / (ds + 1 / 10 ^ 10)⌉.toNat := by rw [arange_length, sub_zero]
  obtain ⟨idx, h1, h2, h3, h4, -, h5⟩ := C31_spacing hd
  refine ⟨idx, by rw [List.head?_eq_getElem?]; exact h2, h3, fun j hj => by rw [← hnc]; exact (h4 j hj).1, ?_⟩
  apply List.ext_getElem?
  intro i
  rw [List.getElem?_map, List.getElem?_map]
  cases hi : idx[i]? with
  | none =>
    rw [List.getElem?_eq_none_iff] at hi
    rw [List.getElem?_eq_none (by omega)]
    rfl
  | some j =>
    obtain ⟨h6, h7⟩ := h4 j (List.mem_of_getElem? hi)
    rw [h5 i j hi]
    unfold finePts at h7 ⊢
    rw [List.length_map, arange_length] at h7
    rw [List.getElem?_map, arange_getElem?, if_pos h7]
    simp only [Option.map_some, Option.some.injEq]
    have h0 : (arange 0 (len * 2) (ds + 1 / 10 ^ 10)).getD 0 0 = 0 := by
      rw [List.getD_eq_getElem?_getD, arange_getElem?]
      split_ifs <;> simp
    rw [h0, show (0 : ℝ) + j * (1 / 10 * (1 / 10)) = j / 100 by ring]
    exact interp_between _ h6

theorem curve_centreline {m d : Dict} {g : Grid} (hg : GridFrom m g) {p : ChannelRead} (hp : ChannelFrom d p) {r : ObjRandoms} {l i : ℕ}
    (hi : i < p.params.channelNo) {pts : List CPoint}
    (h : r.curve p g (l * p.params.channelNo + i) p.erosive.width = .ok pts) : Centreline m d r l i (l * p.params.channelNo + i) pts := by
  obtain ⟨x0, dx, lx, x1, -, x2, x3, -, x4⟩ := hg.x
  obtain ⟨y0, dy, ly, y1, -, y2, y3, -, y4⟩ := hg.y
  refine ⟨p.h, p.k, p.ds, p.epsFactor, p.flowAngle, p.mig, p.erosive.width, x0, lx, y0, ly, hp.h, hp.k, hp.ds, hp.eps, hp.flow, hp.mig,
    hp.erosive.width, x1, x2, y1, y2, ?_⟩
  rintro - ang rfl len rfl step rfl
  unfold ObjRandoms.curve channelCurve at h
  dsimp only at h
  rw [show (l * p.params.channelNo + i) % p.params.channelNo = i by
      rw [Nat.mul_comm, Nat.mul_add_mod]; exact Nat.mod_eq_of_lt hi,
    show (l * p.params.channelNo + i) / p.params.channelNo = l by
      rw [Nat.mul_comm, Nat.mul_add_div (by omega), Nat.div_eq_of_lt hi, Nat.add_zero], ystart_lateral] at h
  cases hc : fergusonCurve g p.h p.k p.ds p.epsFactor (p.flowAngle * π / 180) (domainLength g (p.flowAngle * π / 180))
      (channelStart g (p.flowAngle * π / 180) p.erosive.width (lateral (domainWidth g (p.flowAngle * π / 180)) p.mig r i l)).1
      (channelStart g (p.flowAngle * π / 180) p.erosive.width (lateral (domainWidth g (p.flowAngle * π / 180)) p.mig r i l)).2
      p.erosive.width (r.noise (l * p.params.channelNo + i)) with
  | none => rw [hc] at h; cases h
  | some c =>
    rw [hc] at h
    have hcp : c = .ok pts := h
    subst hcp
    unfold fergusonCurve at hc
    cases hd : fergusonDirections p.h p.k p.ds p.epsFactor (domainLength g (p.flowAngle * π / 180)) (r.noise (l * p.params.channelNo + i)) with
    | none => rw [hd] at hc; cases hc
    | some e =>
      cases e with
      | error e => rw [hd] at hc; cases hc
      | ok th =>
        rw [hd] at hc
        simp only [Option.some.injEq, Except.ok.injEq] at hc
        obtain ⟨picks, p1, p2, p3, p4⟩ := directions_picks hd
        have hne : th.map Prod.snd ≠ [] := by
          rw [p4]
          cases picks with
          | nil => cases p1
          | cons a b => simp
        obtain ⟨c1, ⟨q0, c2, c3, c4⟩, φ, c5, c6, ⟨δ, c7⟩, c8, c9⟩ := C30_chain (ds := p.ds + 1 / 10 ^ 10) (flow := p.flowAngle * π / 180)
          (xs := (channelStart g (p.flowAngle * π / 180) p.erosive.width (lateral (domainWidth g (p.flowAngle * π / 180)) p.mig r i l)).1)
          (ys := (channelStart g (p.flowAngle * π / 180) p.erosive.width (lateral (domainWidth g (p.flowAngle * π / 180)) p.mig r i l)).2) hne
        have hlen : domainLength g (p.flowAngle * π / 180) = |lx * cos (p.flowAngle * π / 180)| + |ly * sin (p.flowAngle * π / 180)| := by
          rw [domainLength, x4, y4]
        have hwid : domainWidth g (p.flowAngle * π / 180) = |lx * sin (p.flowAngle * π / 180)| + |ly * cos (p.flowAngle * π / 180)| := by
          rw [domainWidth, x4, y4]
        refine ⟨_, picks, δ, φ, _, theta_meander _ _ _ _, p1, p2, ?_, ?_, c6, c1.trans c5.symm, ⟨q0, c2, ?_, ?_⟩, ?_, ?_, ?_⟩
        · rw [← hlen]
          exact p3
        · apply List.ext_getElem?
          intro j
          have hj : (picks.map fun j : ℕ => between (theta (r.noise (l * p.params.channelNo + i)) p.epsFactor p.k p.h) (j / 100))[j]? =
              (th.map Prod.snd)[j]? := by rw [p4]
          rw [List.getElem?_map] at hj ⊢
          cases hp' : picks[j]? with
          | none =>
            rw [hp'] at hj
            have := List.getElem?_eq_none_iff.1 hj.symm
            exact List.getElem?_eq_none (by omega)
          | some a =>
            rw [hp'] at hj
            have hlt : j < φ.length := by
              rw [c5]
              by_contra hcon
              rw [List.getElem?_eq_none (by omega)] at hj
              cases hj
            have hb := List.getElem?_eq_getElem hlt
            rw [hb, c7 j _ _ hj.symm hb]
            rfl
        · rw [c3, ← hlen, ← hwid, ← x3, ← x4]
          rfl
        · rw [c4, ← hlen, ← hwid, ← y3, ← y4]
          rfl
        · intro j q hq
          have hlt : j < φ.length := by
            rw [c5, ← c1]
            exact (List.getElem?_eq_some_iff.1 hq).1
          exact ⟨φ[j], List.getElem?_eq_getElem hlt, c8 j q _ hq (List.getElem?_eq_getElem hlt)⟩
        · intro j q q' hq hq'
          obtain ⟨d1, d2, -⟩ := c9 j q q' hq hq'
          exact ⟨d1, d2⟩
        · rw [← hc]
          refine ⟨List.filter_sublist, fun q => ?_⟩
          unfold trim
          rw [List.mem_filter, Bool.and_eq_true, decide_eq_true_iff, decide_eq_true_iff, Grid.xmax, x3, x4]

theorem Channel.test_no_error (c : Channel) (g : Grid) (k : Cache) (x y z : ℝ) (xi yi : ℕ) (e : PyErr) : (c.test g k x y z xi yi).1 ≠ .error e := by
  have key : ∀ tb n az dp, tableHit tb n az dp ≠ (.error e : Answer ℝ) := by
    intro tb n az dp
    unfold tableHit
    split_ifs <;> try split
    all_goals simp
  have hin : c.inner x y z ≠ .error e := by
    unfold Channel.inner
    dsimp only
    split_ifs
    · simp
    · exact key _ _ _ _
    · simp
  unfold Channel.test
  dsimp only
  split_ifs <;> first | exact hin | simp

theorem channel_at {m d : Dict} {g : Grid} (hg : GridFrom m g) {p : ChannelRead} (hp : ChannelFrom d p) {r : ObjRandoms} {l i n : ℕ} {pts : List CPoint}
    {top : ℝ} {c : Channel} (hc : Channel.new p.params (r.channel p n) g pts top p.erosive.width p.erosive.depth = .ok c)
    (hcl : Centreline m d r l i n pts) (stray : ℤ → ℤ × Option ℝ × Option ℝ) :
    ChannelAt m d r g.nx g.ny l i n top (c.toObj g (r.skip n) stray) := by
  obtain ⟨-, -, -, -, hdep, -, hzt, hzmax, hzmin, -⟩ := Channel.new_basic hc
  refine ⟨⟨p.erosive.width, p.erosive.depth, pts, hp.erosive.width, hp.erosive.depth, hzmax, hzmin, hcl, fun h1 h2 h3 i hi j hj x y hcell z => ?_⟩,
    p.erosive.lagHeight, p.erosive.lagFacies, hp.erosive.lagHeight, hp.erosive.lagFacies, fun i j z v hv hz => ?_⟩
  · obtain ⟨hx, hy⟩ := cell_coord hg hi hj hcell
    have hpar := C26_parabola hc (by exact_mod_cast h1) (by exact_mod_cast h2) (by exact_mod_cast h3) x y z i j
    show (if r.skip n i j z then none else (c.test g Cache.empty (coord g.x i) (coord g.y j) z i j).1.toCell stray) ≠ none ↔ _
    rw [hx, hy, ← hpar]
    cases r.skip n i j z with
    | true => simp
    | false =>
      rw [if_neg (by simp), toCell_ne_none (Channel.test_no_error c g _ x y z i j)]
      simp
  · have hv' : (if r.skip n i j z then none else (c.test g Cache.empty (coord g.x i) (coord g.y j) z i j).1.toCell stray) = some v := hv
    have hz' : z < c.zmin + p.erosive.lagHeight := hz
    rw [hzmin] at hz'
    cases hs : r.skip n i j z with
    | true => rw [hs] at hv'; cases hv'
    | false =>
      rw [hs, if_neg (by simp)] at hv'
      have hne : (c.test g Cache.empty (coord g.x i) (coord g.y j) z i j).1 ≠ .miss := by
        intro hmiss
        rw [hmiss] at hv'
        cases hv'
      have := (C21_channel hc _ _ z i j Cache.empty hne).1 (by
        show z - _ < (p.erosive.lagHeight : ℝ)
        linarith)
      rw [this] at hv'
      cases hv'
      rfl

theorem channels_at {m d : Dict} {g : Grid} (hg : GridFrom m g) {p : ChannelRead} (hp : ChannelFrom d p) {r : ObjRandoms} {fuel : ℕ}
    {bottom top : Surface ℝ} {cs : List Channel} (h : placeChannels p g r fuel bottom top = some (.ok cs)) :
    Channels m d r g.nx g.ny top.zmean bottom.zmean (numbered (fun n => Channel.toObj g (r.skip n) (r.stray n)) 0 cs) := by
  unfold placeChannels at h
  by_cases hno : p.channelNo < 0
  · rw [if_pos hno] at h
    cases h
  rw [if_neg hno] at h
  unfold generateChannels at h
  cases htr : p.erosive.sizeZtrend with
  | some f =>
    have : channelBufferFactor p.params = .error .valueError := by simp [channelBufferFactor, ChannelRead.params, htr]
    rw [this] at h
    cases h
  | none =>
    have h1 : channelBufferFactor p.params = .ok 1 := by simp [channelBufferFactor, ChannelRead.params, htr]
    have h2 : ∀ z, channelFactor p.params g z = 1 := fun z => by simp [channelFactor, ChannelRead.params, htr]
    rw [h1] at h
    dsimp only at h
    obtain ⟨L, h3, h4, h5, h6⟩ := channelLevels_at h
    have eb : bottom.zmean + p.params.depth * 1 * p.params.buffer = bottom.zmean + p.erosive.depth * p.erosive.buffer := by rw [mul_one]; rfl
    have et : ∀ l : ℕ, top.zmean - p.params.agg - l * p.params.agg = top.zmean - (l + 1) * p.erosive.agg := fun l => by
      show top.zmean - (p.erosive.agg : ℝ) - l * p.erosive.agg = _
      ring
    have hnn : ((p.params.channelNo : ℤ) : ℤ) = p.channelNo := Int.toNat_of_nonneg (by omega)
    refine ⟨hp.erosive.trend.2 htr, p.params.channelNo, L, p.erosive.agg, p.erosive.depth, p.erosive.buffer, ?_, hp.erosive.agg, hp.erosive.depth,
      hp.erosive.buffer, fun l hl => ?_, ?_, ?_, fun l hl i hi => ?_⟩
    · rw [hp.count, ← hnn]
      rfl
    · rw [← et, ← eb]
      exact h3 l hl
    · rw [← et, ← eb]
      exact h4
    · rw [numbered_length, h5]
    · obtain ⟨c, pts, c1, c2, c3⟩ := h6 l hl i hi
      rw [h2, mul_one, Nat.zero_add] at c2
      rw [h2, mul_one, mul_one, Nat.zero_add, et] at c3
      refine ⟨_, by rw [numbered_get, c1]; rfl, ?_⟩
      rw [Nat.zero_add]
      exact channel_at hg hp c3 (curve_centreline hg hp hi c2) _

end Hyvr
