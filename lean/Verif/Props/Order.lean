import Verif.Props.Complete
import Verif.Props.Cake
import Mathlib.Data.List.Nodup

/-!
C120: the order of the sections of an ini-file.
-/

namespace Hyvr

open Py

namespace Spec

/-- The same ini-file with its sections in another order. The names of the sections of a `ConfigParser` are distinct. -/
structure Reordered (p q : Ini) : Prop where
  perm : p.sections.Perm q.sections
  distinct : p.sections.Nodup
  same : ∀ s, q.get s = p.get s

end Spec

/-! ### Lists in another order -/

theorem mapPy_perm {β γ : Type} {f : β → Except PyErr γ} {l l' : List β} (hp : l.Perm l') : ∀ {bs : List γ}, mapPy f l = .ok bs →
    ∃ bs', mapPy f l' = .ok bs' ∧ bs.Perm bs' := by
  induction hp with
  | nil => exact fun h => ⟨_, h, .refl _⟩
  | cons a _ ih =>
    intro bs h
    simp only [mapPy, bind_ok, pure_ok] at h
    obtain ⟨b, hb, cs, hcs, rfl⟩ := h
    obtain ⟨cs', h1, h2⟩ := ih hcs
    refine ⟨b :: cs', ?_, h2.cons _⟩
    simp only [mapPy, bind_ok, pure_ok]
    exact ⟨b, hb, cs', h1, rfl⟩
  | swap a b l =>
    intro bs h
    simp only [mapPy, bind_ok, pure_ok] at h
    obtain ⟨x, hx, _, ⟨y, hy, cs, hcs, rfl⟩, rfl⟩ := h
    refine ⟨y :: x :: cs, ?_, .swap _ _ _⟩
    simp only [mapPy, bind_ok, pure_ok]
    exact ⟨y, hy, _, ⟨x, hx, cs, hcs, rfl⟩, rfl⟩
  | trans _ _ ih1 ih2 =>
    intro bs h
    obtain ⟨bs', h1, h2⟩ := ih1 h
    obtain ⟨bs'', h3, h4⟩ := ih2 h1
    exact ⟨bs'', h3, h2.trans h4⟩

theorem lookup_some_iff {β : Type} {l : List (String × β)} (hn : (l.map Prod.fst).Nodup) {k : String} {v : β} : l.lookup k = some v ↔ (k, v) ∈ l := by
  induction l with
  | nil => simp
  | cons x l ih =>
    obtain ⟨k', v'⟩ := x
    rw [List.map_cons, List.nodup_cons] at hn
    rw [List.lookup_cons, List.mem_cons]
    by_cases hk : k = k'
    · subst hk
      have : (k, v) ∉ l := fun h => hn.1 (List.mem_map.2 ⟨_, h, rfl⟩)
      simp [this, eq_comm]
    · have hb : (k == k') = false := by simpa using hk
      simp [hb, hk, ih hn.2]

theorem lookup_perm {β : Type} {l l' : List (String × β)} (hp : l.Perm l') (hn : (l.map Prod.fst).Nodup) (k : String) : l'.lookup k = l.lookup k := by
  have hn' : (l'.map Prod.fst).Nodup := (hp.map _).nodup_iff.1 hn
  ext v
  rw [lookup_some_iff hn, lookup_some_iff hn', hp.mem_iff]

/-- Results labelled with the names of what they were made from have these names. -/
theorem mapPy_names {β γ : Type} {f : String × β → Except PyErr γ} {l : List (String × β)} {bs : List (String × γ)}
    (h : mapPy (fun x => do
      let c ← f x
      return (x.1, c)) l = .ok bs) : bs.map Prod.fst = l.map Prod.fst := by
  induction l generalizing bs with
  | nil => cases h; rfl
  | cons a l ih =>
    simp only [mapPy, bind_ok, pure_ok] at h
    obtain ⟨b, ⟨c, -, rfl⟩, cs, hcs, rfl⟩ := h
    rw [List.map_cons, List.map_cons, ih hcs]

theorem aeType_perm {E E' : List (String × Element)} (hp : E.Perm E') (hn : (E.map Prod.fst).Nodup) (v : Val) : aeType E' v = aeType E v := by
  have key : ∀ {E : List (String × Element)}, (E.map Prod.fst).Nodup → ∀ {e : Element}, aeType E v = .ok e ↔ ∃ s, (s, e) ∈ E ∧ v = .leaf (.text s.toList) := by
    intro E hn e
    induction E with
    | nil => simp [aeType]
    | cons x E ih =>
      obtain ⟨s', e'⟩ := x
      rw [List.map_cons, List.nodup_cons] at hn
      unfold aeType
      rw [List.find?_cons]
      by_cases hv : v = .leaf (.text s'.toList)
      · simp only [hv, decide_true]
        constructor
        · rintro ⟨⟩
          exact ⟨s', by simp, rfl⟩
        · rintro ⟨s, hs, he⟩
          have hss : s = s' := String.toList_inj.1 (Atom.text.inj (Tree.leaf.inj he)).symm
          subst hss
          rcases List.mem_cons.1 hs with h | h
          · cases h; rfl
          · exact absurd (List.mem_map.2 ⟨_, h, rfl⟩) hn.1
      · simp only [hv, decide_false]
        refine (ih hn.2).trans ?_
        constructor
        · rintro ⟨s, hs, he⟩
          exact ⟨s, List.mem_cons_of_mem _ hs, he⟩
        · rintro ⟨s, hs, he⟩
          rcases List.mem_cons.1 hs with h | h
          · cases h
            exact absurd he hv
          · exact ⟨s, h, he⟩
  have hn' : (E'.map Prod.fst).Nodup := (hp.map _).nodup_iff.1 hn
  have hall : ∀ e, aeType E' v = .ok e ↔ aeType E v = .ok e := fun e => by rw [key hn, key hn']; simp [hp.mem_iff]
  have herr : ∀ (E : List (String × Element)) x, aeType E v = .error x → x = .keyError := by
    intro E x h
    unfold aeType at h
    split at h <;> cases h
    rfl
  cases h : aeType E v with
  | ok e => exact (hall e).2 h
  | error x =>
    cases h' : aeType E' v with
    | ok e => rw [(hall e).1 h'] at h; cases h
    | error y => rw [herr _ _ h, herr _ _ h']

/-! ### Reading -/

variable {P : Parsed} {E' : List (String × Element)}

theorem readStratum_perm (hp : P.elements.Perm E') (hn : (P.elements.map Prod.fst).Nodup) {ids ids' : List (String × ℕ)}
    (hi : ∀ s, ids'.lookup s = ids.lookup s) (n si : ℕ) : readStratum { P with elements := E' } ids' n si = readStratum P ids n si := by
  have h1 : stratumInput { P with elements := E' } n si = stratumInput P n si := by
    simp only [stratumInput, stratumTypes]
    rw [show aeType E' = aeType P.elements from funext (aeType_perm hp hn)]
  have h2 : idOf ids' = idOf ids := by
    funext s
    simp only [idOf, hi]
  simp only [readStratum, h1, h2]

theorem genInput_perm (hp : P.elements.Perm E') (hn : (P.elements.map Prod.fst).Nodup) {ids ids' : List (String × ℕ)}
    (hi : ∀ s, ids'.lookup s = ids.lookup s) {I : GenInput} (h : genInput P ids = .ok I) : genInput { P with elements := E' } ids' = .ok I := by
  simp only [genInput, bind_ok, pure_ok] at h ⊢
  obtain ⟨dx, h1, lx, h2, nx, h3, dy, h4, ly, h5, ny, h6, v, h7, z0, h8, v', h9, lz, h10, sv, h11, n, h12, cs, h13, els, h14, rs, h15, rfl⟩ := h
  obtain ⟨els', h14', hperm⟩ := mapPy_perm hp h14
  refine ⟨dx, h1, lx, h2, nx, h3, dy, h4, ly, h5, ny, h6, v, h7, z0, h8, v', h9, lz, h10, sv, h11, n, h12, cs, h13, els', h14', rs, ?_, ?_⟩
  · rw [← h15, show readStratum { P with elements := E' } ids' n = readStratum P ids n from funext (readStratum_perm hp hn hi n)]
  · have : contactsOf els' = contactsOf els := by
      funext s
      simp only [contactsOf, lookup_perm hperm ((mapPy_names (f := fun e : String × Element => readContact e.2.contact) h14) ▸ hn) s]
    rw [this]

theorem objects_perm (hp : P.elements.Perm E') (hn : (P.elements.map Prod.fst).Nodup) {shapes : List (String × ShapeRead)} (h : readShapes P = .ok shapes) :
    ∃ shapes', readShapes { P with elements := E' } = .ok shapes' ∧ ∀ g o d, withObjects g shapes' o d = withObjects g shapes o d := by
  obtain ⟨shapes', h', hperm⟩ := mapPy_perm hp h
  refine ⟨shapes', h', fun g o d => ?_⟩
  have hl : ∀ s, shapes'.lookup s = shapes.lookup s :=
    lookup_perm hperm ((mapPy_names (f := fun x : String × Element => readShape x.2.dict) h) ▸ hn)
  funext si
  simp only [withObjects]
  have h1 : ∀ n, objectsOf g shapes' (o si n) = objectsOf g shapes (o si n) := fun n => by
    funext fuel t b u
    simp only [objectsOf, hl]
  have h2 : ∀ n, sheetOf g shapes' (o si n) = sheetOf g shapes (o si n) := fun n => by
    funext t k z
    simp only [sheetOf, hl]
  simp only [h1, h2]

theorem simulateAfter_perm (hp : P.elements.Perm E') (hn : (P.elements.map Prod.fst).Nodup) {ids ids' : List (String × ℕ)}
    (hi : ∀ s, ids'.lookup s = ids.lookup s) {left : Option (Contacts ℝ)} {ch : Chance} {X : Simulation × Contacts ℝ}
    (h : simulateAfter P ids left ch = .ok X) : simulateAfter { P with elements := E' } ids' left ch = .ok X := by
  have hbg : backgroundOf { P with elements := E' } = backgroundOf P := by
    funext a
    simp only [backgroundOf, lookup_perm hp hn]
  have hpar : ∀ s m c, paramsOf { P with elements := E' } s m ch.field c = paramsOf P s m ch.field c := fun s m c => by
    simp only [paramsOf, hydraulicsOf, hbg]
  simp only [simulateAfter, generateAfter, bind_ok, pure_ok, liftErr_ok] at h ⊢
  obtain ⟨⟨m, cms⟩, ⟨g, hg, shapes, hs, I, hI, hm⟩, g', hg', H, hH, rfl⟩ := h
  obtain ⟨shapes', hs', hw⟩ := objects_perm hp hn hs
  refine ⟨(m, cms), ⟨g, hg, shapes', hs', I, genInput_perm hp hn hi hI, ?_⟩, g', hg', H, ?_, rfl⟩
  · rw [hw]; exact hm
  · rw [hpar]; exact hH

/-- Runs that succeed. -/
theorem realisations_perm (hp : P.elements.Perm E') (hn : (P.elements.map Prod.fst).Nodup) {ids ids' : List (String × ℕ)}
    (hi : ∀ s, ids'.lookup s = ids.lookup s) (c : RunCfg) (write : Writers) (ch : ℕ → Chance) (numsim : ℕ) (w' : World) :
    ∀ k s left w, realisations P ids c write ch numsim k s left w = some (w', none) →
      realisations { P with elements := E' } ids' c write ch numsim k s left w = some (w', none) := by
  intro k
  induction k with
  | zero => exact fun s left w h => h
  | succ k ih =>
    intro s left w h
    rw [realisations] at h ⊢
    cases hX : simulateAfter P ids left (ch s) with
    | error e =>
      rw [hX] at h
      cases e <;> cases h
    | ok X =>
      obtain ⟨S, cms⟩ := X
      rw [hX] at h
      rw [simulateAfter_perm hp hn hi hX]
      dsimp only at h ⊢
      cases hw : w.mkdir (realDir c.rundir numsim s) with
      | mk w1 oe =>
        rw [hw] at h
        cases oe with
        | some e => cases h
        | none =>
          dsimp only at h ⊢
          rw [show outputsOf { P with elements := E' } c.runname write S = outputsOf P c.runname write S from rfl]
          cases ho : outputsOf P c.runname write S with
          | mk files oe =>
            rw [ho] at h
            cases oe with
            | some e => cases h
            | none => exact ih _ _ _ h

/-! ### Ini-files -/

theorem parse_perm {C : Convs} {p q : Ini} (hr : Spec.Reordered p q) (h : parseInifile C p = .ok P) :
    (P.elements.map Prod.fst).Nodup ∧ ∃ E', P.elements.Perm E' ∧ parseInifile C q = .ok { P with elements := E' } := by
  simp only [parseInifile, bind_ok, pure_ok, dget_ok] at h ⊢
  obtain ⟨u, hu, run, hrun, hyd, hhyd, model, hmodel, hv, hhv, hydro, hh, st, hst, outs, houts, outputs, ho, fl, hfl, els, hels, rfl⟩ := h
  have hpe : (elementSections p).Perm (elementSections q) := hr.perm.filter _
  have hsame : parseNamedElement C hydro q = parseNamedElement C hydro p := by
    funext s
    simp only [parseNamedElement, hr.same]
  obtain ⟨els', hels', hperm⟩ := mapPy_perm hpe hels
  refine ⟨?_, els', hperm, u, ?_, run, ?_, hyd, ?_, model, ?_, hv, hhv, hydro, hh, st, ?_, outs, houts, outputs, ho, fl, ?_, els', ?_, rfl⟩
  · have : els.map Prod.fst = elementSections p := by
      clear hels' hperm
      generalize elementSections p = l at hels
      induction l generalizing els with
      | nil => cases hels; rfl
      | cons a l ih =>
        simp only [mapPy, parseNamedElement, bind_ok, pure_ok] at hels
        obtain ⟨b, ⟨c, -, rfl⟩, cs, hcs, rfl⟩ := hels
        rw [List.map_cons, ih _ hcs]
    rw [this]
    exact hr.distinct.filter _
  · rw [← hu]
    simp only [sectionsCheck, hr.perm.mem_iff]
  · rw [hr.same]; exact hrun
  · rw [hr.same]; exact hhyd
  · rw [hr.same]; exact hmodel
  · rw [hr.same]; exact hst
  · rw [← hfl]
    simp only [parseFlowtrans, hr.perm.mem_iff, hr.same]
  · rw [hsame]; exact hels'

theorem aeIds_perm (hp : P.elements.Perm E') (hn : (P.elements.map Prod.fst).Nodup) {ids : List (String × ℕ)} (h : aeIds P = .ok ids) :
    ∃ ids', aeIds { P with elements := E' } = .ok ids' ∧ ∀ s, ids'.lookup s = ids.lookup s := by
  simp only [aeIds, bind_ok] at h ⊢
  obtain ⟨ae, h1, l, h2, h3⟩ := h
  obtain ⟨ids', h3', hperm⟩ := mapPy_perm hp h3
  refine ⟨ids', ⟨ae, h1, l, h2, h3'⟩, lookup_perm hperm ?_⟩
  rw [mapPy_names (f := fun e : String × Element => pyIndex l (.leaf (.text e.1.toList))) h3]
  exact hn

/-- **C120 (settings).** Accepted in one order, an ini-file of the new format is accepted in every order; every realisation that succeeds is the same, for all
random numbers and whatever earlier realisations have left behind. -/
theorem C120_realisation (C : Convs) (p q : Ini) (hr : Spec.Reordered p q) (hnew : p.get "run" "dataoutputs" = none) (iniDir : Path) (ini : List Char) (answer : Path)
    (st : Settings) (h : settings C p iniDir ini answer = .ok st) :
    ∃ st', settings C q iniDir ini answer = .ok st' ∧ st'.cfg = st.cfg ∧ st'.parsed.run = st.parsed.run ∧ st'.types.Perm st.types ∧
      (∀ left ch X, simulateAfter st'.parsed st'.ids left ch = .ok X ↔ simulateAfter st.parsed st.ids left ch = .ok X) ∧
      ∀ write ch numsim k s left w w', realisations st'.parsed st'.ids st'.cfg write ch numsim k s left w = some (w', none) ↔
        realisations st.parsed st.ids st.cfg write ch numsim k s left w = some (w', none) := by
  simp only [settings, parameters, bind_ok, pure_ok] at h
  obtain ⟨⟨P, cfg⟩, hpar, ids, hids, types, htypes, rfl⟩ := h
  split_ifs at hpar with hs
  simp only [bind_ok, pure_ok] at hpar
  obtain ⟨P1, hP, rn, h1, given, h2, md, h3, ⟨runname, modeldir, rundir⟩, h4, ow, h5, heq⟩ := hpar
  cases heq
  obtain ⟨hn, E', hp, hq⟩ := parse_perm hr (parseAny_new hP hnew)
  obtain ⟨ids', hids', hi⟩ := aeIds_perm hp hn hids
  have hany : parseAny C q = .ok { P with elements := E' } := by
    have hrun : "run" ∈ p.sections := by
      by_contra hc
      rw [parseAny, if_pos hc] at hP
      cases hP
    rw [parseAny, if_neg (not_not.2 (hr.perm.mem_iff.1 hrun)), hr.same, hnew]
    exact hq
  have hs' : q.sections ≠ [] := fun hc => hs (List.perm_nil.1 (hc ▸ hr.perm))
  simp only [modelInit, bind_ok, pure_ok] at htypes
  obtain ⟨u, hu, tys, htys, a1, b1, a2, b2, a3, b3, a4, b4, rfl⟩ := htypes
  obtain ⟨tys', htys', hperm⟩ := mapPy_perm hp htys
  have hn' : (E'.map Prod.fst).Nodup := (hp.map _).nodup_iff.1 hn
  refine ⟨⟨{ P with elements := E' }, _, ids', tys'⟩, ?_, rfl, rfl, hperm.symm, fun left ch X => ⟨fun hX => ?_, simulateAfter_perm hp hn hi⟩,
    fun write ch numsim k s left w w' => ⟨fun hX => ?_, realisations_perm hp hn hi _ _ _ _ _ _ _ _ _⟩⟩
  · simp only [settings, parameters, if_neg hs', bind_ok, pure_ok]
    refine ⟨_, ⟨_, hany, rn, h1, given, h2, md, h3, _, h4, ow, h5, rfl⟩, ids', hids', tys', ?_, rfl⟩
    simp only [modelInit, bind_ok, pure_ok]
    exact ⟨u, hu, tys', htys', a1, b1, a2, b2, a3, b3, a4, b4, rfl⟩
  · exact simulateAfter_perm (P := { P with elements := E' }) (E' := P.elements) hp.symm hn' (fun s => (hi s).symm) hX
  · exact realisations_perm (P := { P with elements := E' }) (E' := P.elements) hp.symm hn' (fun s => (hi s).symm) _ _ _ _ _ _ _ _ _ hX

/-- **C120 (run).** A run with the sections in another order ends without exception if and only if the run does, and leaves the same files; `text` is what is
written as the backup of the ini-file. -/
theorem C120_run (C : Convs) (p q : Ini) (hr : Spec.Reordered p q) (hnew : p.get "run" "dataoutputs" = none) (text : String) (iniDir : Path) (ini : List Char)
    (answer : Path) (flag : Option Bool) (write : Writers) (ch : ℕ → Chance) (w w' : World) :
    runHyvr C q text iniDir ini answer flag write ch w = some (w', none) ↔ runHyvr C p text iniDir ini answer flag write ch w = some (w', none) := by
  have key : ∀ {p q : Ini}, Spec.Reordered p q → p.get "run" "dataoutputs" = none →
      runHyvr C p text iniDir ini answer flag write ch w = some (w', none) → runHyvr C q text iniDir ini answer flag write ch w = some (w', none) := by
    intro p q hr hnew h
    unfold runHyvr setupIni at h ⊢
    cases hst : settings C p iniDir ini answer with
    | error e =>
      rw [hst] at h
      cases h
    | ok st =>
      obtain ⟨st', hst', hcfg, hrun, -, -, hreal⟩ := C120_realisation C p q hr hnew iniDir ini answer st hst
      rw [hst] at h
      rw [hst']
      dsimp only at h ⊢
      rw [hcfg]
      cases hs : setUp text st.cfg flag w with
      | mk w1 oe =>
        rw [hs] at h
        cases oe with
        | some e => cases h
        | none =>
          dsimp only at h ⊢
          rw [hrun]
          cases hnum : (do let v ← st.parsed.run.get "numsim"; numsimOf v) with
          | error e =>
            rw [hnum] at h
            cases h
          | ok n =>
            rw [hnum] at h
            dsimp only at h ⊢
            rw [← hcfg] at h
            have := (hreal write ch n n 1 none w1 w').2 (hcfg ▸ h)
            exact hcfg ▸ this
  refine ⟨key ⟨hr.perm.symm, hr.perm.nodup_iff.1 hr.distinct, fun s => (hr.same s).symm⟩ ?_, key hr hnew⟩
  rw [hr.same]
  exact hnew

/-! ### Example -/

open Spec

/-- The example of two sheets with its sections written from the last to the first. -/
def exBackwards : Ini := { exCake [] with sections := (exCake []).sections.reverse }

theorem exBackwards_reordered : Spec.Reordered (exCake []) exBackwards :=
  ⟨(List.reverse_perm _).symm, by
    rw [show (exCake []).sections = (iniOf exCakeSections).sections from same_sections _ _ _]
    decide, fun _ => rfl⟩

theorem exBackwards_elements : elementSections exBackwards = ["stones", "mud"] := by
  have : elementSections exBackwards = (elementSections (exCake [])).reverse := List.filter_reverse ..
  rw [this, cake_sections]
  rfl

/-- It is accepted, its elements are in the other order, and its first realisation is that of the example. -/
example : ∃ st st' ch X, settings exMinus (exCake []) ["m"] "a.ini".toList [] = .ok st ∧ settings exMinus exBackwards ["m"] "a.ini".toList [] = .ok st' ∧
    elementSections exBackwards = ["stones", "mud"] ∧ simulateAfter st.parsed st.ids none ch = .ok X ∧ simulateAfter st'.parsed st'.ids none ch = .ok X := by
  obtain ⟨st, hst, hb⟩ := exCake_internal
  obtain ⟨N, S, -, hS⟩ := cake_simulated hst (cake_of hb) (fun _ _ _ _ _ _ _ => 0)
  obtain ⟨st', hst', -, -, -, hsim, -⟩ := C120_realisation exMinus _ _ exBackwards_reordered (cake_new []) _ _ _ st hst
  have hfirst := simulateAfter_first (leftBy_none st.parsed st.ids) (passes N (exChance (fun _ _ _ _ _ _ _ => 0)))
  rw [show simulateFirst st.parsed st.ids (passes N (exChance (fun _ _ _ _ _ _ _ => 0))) = .ok S from hS N le_rfl] at hfirst
  obtain ⟨c, hc, -⟩ := hfirst
  exact ⟨st, st', _, _, hst, hst', exBackwards_elements, hc, (hsim _ _ _).2 hc⟩

end Hyvr
