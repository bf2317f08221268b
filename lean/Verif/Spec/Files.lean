import Verif.Model.Files
import Verif.Spec.Complete
import Verif.Props.Realisations
import Verif.Props.Output

/-!
Vocabulary of C116: the files of a realisation.
-/

namespace Hyvr
namespace Spec

open Py

/-- The arrays of a realisation by name: those of the cells, and the hydraulic parameters if there are any; no others. -/
structure Arrays (S : Simulation) (d : Data) : Prop where
  facies : d.scalar "facies" = some fun i j k => (S.cells.facies i j k : ℝ)
  strata : d.scalar "strata" = some fun i j k => (S.cells.strata i j k : ℝ)
  ae : d.scalar "ae" = some fun i j k => (S.cells.ae i j k : ℝ)
  ha : d.scalar "ha" = some fun i j k => (S.cells.ha i j k : ℝ)
  hat : d.scalar "hat" = some fun i j k => (S.cells.hat i j k : ℝ)
  azim : ∃ A, d.scalar "azim" = some A ∧ ∀ i j k a, S.cells.azim i j k = some a → A i j k = a
  dip : ∃ A, d.scalar "dip" = some A ∧ ∀ i j k a, S.cells.dip i j k = some a → A i j k = a
  params : ∀ D, S.params = some D → d.scalar "k_iso" = some D.kIso ∧ d.scalar "poros" = some D.poros ∧ d.scalar "anirat" = some D.anirat ∧
    ∃ K, d.ktensors = some K ∧ ∀ i j k M, D.ktensors i j k = some M → K i j k = M
  without : S.params = none → d.scalar "k_iso" = none ∧ d.scalar "poros" = none ∧ d.scalar "anirat" = none ∧ d.ktensors = none
  only : ∀ name, name ∉ ["facies", "strata", "ae", "ha", "hat", "azim", "dip", "k_iso", "poros", "anirat"] → d.scalar name = none

/-- The option is the number. -/
def Reads (m : Dict) (k : String) (x : ℝ) : Prop := ∃ q : ℚ, m k = some (numVal q) ∧ x = q

/-- The grid of the section `model`. -/
structure GridOf (m : Dict) (g : Grid) : Prop where
  x0 : Reads m "x0" g.x0
  y0 : Reads m "y0" g.y0
  z0 : Reads m "z0" g.z0
  dx : Reads m "dx" g.dx
  dy : Reads m "dy" g.dy
  dz : Reads m "dz" g.dz
  lx : Reads m "lx" g.lx
  ly : Reads m "ly" g.ly
  lz : Reads m "lz" g.lz

/-- The length `l` is a whole number of cells of the size `d`, which is positive. -/
def Whole (m : Dict) (l d : String) : Prop := ∃ (n : ℕ) (q : ℚ), 0 < q ∧ m d = some (numVal q) ∧ m l = some (numVal (n * q))

/-- What the formats of the list need: hydraulic parameters for `mf`, `mf6` and `hgs`; heads for `mf` and `mf6`; whole cells in every direction for
`vtr`, in the vertical for `mf6`. -/
structure Writable (p : Ini) (P : Parsed) (fmts : List String) : Prop where
  hydraulics : "mf" ∈ fmts ∨ "mf6" ∈ fmts ∨ "hgs" ∈ fmts → P.model "hydraulics" = some (.leaf (.bool true))
  heads : "mf" ∈ fmts ∨ "mf6" ∈ fmts → ∀ k ∈ ["hin", "hout"], p.get "flowtrans" k ≠ none ∧
    ∀ t, p.get "flowtrans" k = some (.leaf (.text t)) → WellWritten t
  vtr : "vtr" ∈ fmts → Whole P.model "lx" "dx" ∧ Whole P.model "ly" "dy" ∧ Whole P.model "lz" "dz"
  mf6 : "mf6" ∈ fmts → Whole P.model "lz" "dz"

/-- Libraries that raise no exception for consistent input: pyevtk if there is one more node than cells on each axis, flopy if there are as many layer bottoms as
layers. The files of flopy are in the directory that it is given. -/
structure LibsFit (L : Libs) : Prop where
  pyevtk : ∀ w, L.pyevtk = some w → ∀ xs ys zs (sh : Shape) d, xs.length = sh.nx + 1 → ys.length = sh.ny + 1 → zs.length = sh.nz + 1 →
    ∃ t, w (xs, ys, zs) sh d = .ok t
  mf2005 : ∀ fl, L.flopy = some fl → ∀ name i, (i.dis.botm.length = i.dis.nlay → (fl.mf2005 name i).2 = none) ∧ ∀ f ∈ (fl.mf2005 name i).1, f.1 ≠ []
  mf6 : ∀ fl, L.flopy = some fl → ∀ name i, (i.dis.botm.length = i.dis.nlay → (fl.mf6 name i).2 = none) ∧ ∀ f ∈ (fl.mf6 name i).1, f.1 ≠ []

/-- The file of the realisation with this extension. -/
def named (s : List Char) (ext : String) : Path := [String.ofList (s ++ ext.toList)]

/-- Where the files of a format are. -/
def FileOf (s : List Char) (fmt : String) (f : Path) : Prop :=
  fmt = "mat" ∧ f = named s ".mat" ∨ fmt = "py" ∧ f = named s ".pickle" ∨ fmt = "npz" ∧ f = named s ".npz" ∨ fmt = "h5" ∧ f = named s ".h5" ∨
  fmt = "vtr" ∧ f = named s ".vtr" ∨ fmt = "mf" ∧ (∃ q, q ≠ [] ∧ f = "MODFLOW" :: q) ∨ fmt = "mf6" ∧ (∃ q, q ≠ [] ∧ f = "mf6" :: q) ∨
  fmt = "hgs" ∧ (f = ["HGS", "ktensors.txt"] ∨ f = ["HGS", "porosity.txt"])

/-- The nodes of an axis of `n` cells. -/
def Nodes (o d : ℝ) (n : ℕ) (l : List ℝ) : Prop := l.length = n + 1 ∧ ∀ i ≤ n, l[i]? = some (o + i * d)

/-- The input of MODFLOW: rows are numbered by the x index of a cell and columns by the y index; the layers are equally thick; the first and the last column have
the heads of inlet and outlet. -/
structure MfFits (g : Grid) (S : Simulation) (D : HydData) (hin hout : ℝ) (i : MfInput) : Prop where
  layers : i.dis.nlay = S.shape.nz
  rows : i.dis.nrow = S.shape.nx
  columns : i.dis.ncol = S.shape.ny
  widths : i.dis.delr = g.dx ∧ i.dis.delc = g.dy
  top : i.dis.top = g.z0 + g.lz
  bottoms : i.dis.botm.length = S.shape.nz ∧ ∀ l < S.shape.nz, i.dis.botm[l]? = some (g.z0 + g.lz - ((l : ℝ) + 1) * (g.lz / S.shape.nz))
  hk : ∀ l r c, i.hk l r c = D.kIso r c l
  vka : ∃ v, i.vka = some v ∧ ∀ l r c, v l r c = D.anirat r c l
  ibound : ∀ l r c, (c = 0 ∨ c = S.shape.ny - 1 → i.ibound l r c = -1) ∧ (c ≠ 0 → c ≠ S.shape.ny - 1 → i.ibound l r c = 1)
  strt : ∀ l r c, (c = S.shape.ny - 1 → i.strt l r c = hout) ∧ (c = 0 → c ≠ S.shape.ny - 1 → i.strt l r c = hin) ∧
    (c ≠ 0 → c ≠ S.shape.ny - 1 → i.strt l r c = 1)

/-- The input of MODFLOW 6: rows are numbered by the y index of a cell and columns by the x index; the layers have the thickness of the cells up to rounding; the
heads of inlet and outlet are those of the first and last column, and the cells of the inlet have a well. -/
structure Mf6Fits (g : Grid) (S : Simulation) (D : HydData) (hin hout : ℝ) (qin : Option ℝ) (i : Mf6Input) : Prop where
  layers : i.dis.nlay = S.shape.nz
  rows : i.dis.nrow = S.shape.ny
  columns : i.dis.ncol = S.shape.nx
  widths : i.dis.delr = g.dy ∧ i.dis.delc = g.dx
  top : i.dis.top = g.z0 + g.lz
  bottoms : i.dis.botm.length = S.shape.nz ∧ ∀ l < S.shape.nz, ∃ b, i.dis.botm[l]? = some b ∧ |b - (g.z0 + g.lz - ((l : ℝ) + 1) * g.dz)| ≤ 1 / 2000
  k : ∀ l r c, i.npf.k l r c = D.kIso c r l
  xt3d : ∃ k33 a1 a2, i.npf.xt3d = some (k33, a1, a2) ∧ ∀ l r c, k33 l r c = D.kIso c r l / D.anirat c r l ∧
    (∀ a, S.cells.azim c r l = some a → a1 l r c = a) ∧ ∀ a, S.cells.dip c r l = some a → a2 l r c = a
  chd : ∀ l r c h, ((l, r, c), h) ∈ i.chd ↔ l < S.shape.nz ∧ r < S.shape.ny ∧ (c = 0 ∧ h = hin ∨ c = S.shape.nx - 1 ∧ h = hout)
  wel : ∀ l r c q, ((l, r, c), q) ∈ i.wel ↔ l < S.shape.nz ∧ r < S.shape.ny ∧ c = 0 ∧ q = qin.getD (1 / 100)

/-- The rows of the HydroGeoSphere files: one for each cell, numbered from one, with the components of its tensor and its porosity. -/
structure HgsFits (S : Simulation) (D : HydData) (kt po : List (List ℝ)) : Prop where
  count : kt.length = S.shape.nx * (S.shape.ny * S.shape.nz) ∧ po.length = S.shape.nx * (S.shape.ny * S.shape.nz)
  tensor : ∀ i < S.shape.nx, ∀ j < S.shape.ny, ∀ k < S.shape.nz, ∀ M, D.ktensors i j k = some M →
    kt[rowOf S.shape.ny S.shape.nz i j k]? =
      some [(rowOf S.shape.ny S.shape.nz i j k : ℝ) + 1, M 0 0, M 1 1, M 2 2, M 0 1, M 0 2, M 1 2]
  poros : ∀ i < S.shape.nx, ∀ j < S.shape.ny, ∀ k < S.shape.nz, po[rowOf S.shape.ny S.shape.nz i j k]? =
    some [(rowOf S.shape.ny S.shape.nz i j k : ℝ) + 1, D.poros i j k]

/-- The files of a realisation, `get` being the text of the file under a name: those of the listed formats and no others; none for a format whose library is
missing. -/
structure Files (L : Libs) (P : Parsed) (s : List Char) (S : Simulation) (fmts : List String) (get : Path → Option String) : Prop where
  arrays : ∃ d, Arrays S d ∧ ("mat" ∈ fmts → get (named s ".mat") = some (L.savemat d)) ∧ ("py" ∈ fmts → get (named s ".pickle") = some (L.pickle d)) ∧
    ("npz" ∈ fmts → get (named s ".npz") = some (L.savez d)) ∧ ("h5" ∈ fmts → get (named s ".h5") = L.h5py.map fun w => w d) ∧
    ("vtr" ∈ fmts → ∀ w, L.pyevtk = some w → ∃ g xs ys zs t, GridOf P.model g ∧ Nodes g.x0 g.dx S.shape.nx xs ∧ Nodes g.y0 g.dy S.shape.ny ys ∧
      Nodes g.z0 g.dz S.shape.nz zs ∧ w (xs, ys, zs) S.shape { d with ktensors := none } = .ok t ∧ get (named s ".vtr") = some t)
  vtr : L.pyevtk = none → get (named s ".vtr") = none
  mf : "mf" ∈ fmts → ∀ fl, L.flopy = some fl → ∃ g D hin hout r r' i, GridOf P.model g ∧ S.params = some D ∧
    P.flowtrans "hin" = some (numList (hin :: r)) ∧ P.flowtrans "hout" = some (numList (hout :: r')) ∧ MfFits g S D hin hout i ∧
    ∀ f, f ≠ [] → get ("MODFLOW" :: f) = lastText (fl.mf2005 s i).1 f
  mf6 : "mf6" ∈ fmts → ∀ fl, L.flopy = some fl → ∃ g D hin hout r r' qin i, GridOf P.model g ∧ S.params = some D ∧
    P.flowtrans "hin" = some (numList (hin :: r)) ∧ P.flowtrans "hout" = some (numList (hout :: r')) ∧
    (qin = none ∧ P.flowtrans "q_in" = some (.leaf .none) ∨ ∃ q : ℚ, qin = some (q : ℝ) ∧ P.flowtrans "q_in" = some (numVal q)) ∧
    Mf6Fits g S D hin hout qin i ∧ ∀ f, f ≠ [] → get ("mf6" :: f) = lastText (fl.mf6 s i).1 f
  flopy : L.flopy = none → ∀ f, f ≠ [] → get ("MODFLOW" :: f) = none ∧ get ("mf6" :: f) = none
  hgs : "hgs" ∈ fmts → ∃ D kt po, S.params = some D ∧ HgsFits S D kt po ∧ get ["HGS", "ktensors.txt"] = some (L.savetxt kt) ∧
    get ["HGS", "porosity.txt"] = some (L.savetxt po)
  only : ∀ f, get f ≠ none → ∃ fmt ∈ fmts, FileOf s fmt f

end Spec
end Hyvr
