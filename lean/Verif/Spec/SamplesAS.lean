import Verif.Spec.Samples
import Verif.Spec.AS4100
import Verif.Lemmas.Positions
import Verif.Lemmas.Material

/-! # Concrete AS4100 objects used to show that hypotheses can be met -/

namespace BeamDesign.Samples

open BeamDesign

/-- Steel of grade 250, with the strengths of the shipped material table. -/
def steel : Material ℚ :=
  ⟨.mat .steel, .str "250", .str "AS3678-2016", [("E", .num 200000000000), ("strengths", .table [
    [1/125, 3/250, 1/50, 1/20, 2/25, 3/20, 1/5],
    [280000000, 260000000, 250000000, 250000000, 240000000, 230000000, 220000000],
    [410000000, 410000000, 410000000, 410000000, 410000000, 410000000, 400000000]])]⟩

/-- A rod of the given radius. -/
def rod (r : ℚ) : Sect ℚ := .circle r (some steel)

/-- An element with load case 7. -/
def rodElem (l r : ℚ) : Element ℚ (Sect ℚ) := ⟨[(7, lc)], some (Num.flt l), rod r⟩

/-- A beam of a 20 mm and a 40 mm rod. -/
def rods : Beam ℚ (Sect ℚ) := ⟨[rodElem 2 (1/100), rodElem 3 (1/50)]⟩

/-- Its element lengths. -/
def rodLens : List (Num ℚ) := [Num.flt 2, Num.flt 3]

/-- The AS4100 object for it. -/
def obj : AS4100 ℚ :=
  ⟨some rods, none, 20, [⟨1/100, steel⟩, ⟨1/50, steel⟩], 90/100, 85/100, 1⟩

theorem rods_lens : Spec.HasLengths rods rodLens := by
  refine ⟨?_, by decide +kernel⟩
  repeat first | exact List.Forall₂.nil | refine List.Forall₂.cons rfl ?_

theorem rods_loaded : Spec.LoadedFloat rods 7 := by
  intro i hi
  have : i = 0 ∨ i = 1 := by
    have : rods.elements.length = 2 := rfl
    omega
  refine ⟨⟨false, rows⟩, ?_, rfl⟩
  rcases this with rfl | rfl
  · exact ⟨rodElem 2 (1/100), rfl, rfl, wf, by simp [rows]⟩
  · exact ⟨rodElem 3 (1/50), rfl, rfl, wf, by simp [rows]⟩

theorem obj_aligned : Spec.Aligned obj := by
  unfold Spec.Aligned
  exact .cons ⟨rfl, rfl⟩ (.cons ⟨rfl, rfl⟩ .nil)

theorem obj_capacity : ∀ d ∈ obj.dsects, ∃ n, Spec.SectionCapacity rt obj.kt obj.alphaU d n := by
  intro d hd
  have h : d = ⟨1/100, steel⟩ ∨ d = ⟨1/50, steel⟩ := by simpa [obj] using hd
  rcases h with rfl | rfl
  · exact ⟨_, 250000000, 410000000, strengths_iff.2 ⟨by decide +kernel, by decide +kernel⟩, rfl⟩
  · exact ⟨_, 250000000, 410000000, strengths_iff.2 ⟨by decide +kernel, by decide +kernel⟩, rfl⟩

/-- A row with an axial load only. -/
def axial (p n : ℚ) : LRow ℚ := ⟨p, 0, 0, n, 0, 0, 0⟩

/-- No axial load. -/
def slack : LoadCase ℚ := ⟨some ⟨false, [axial 0 0, axial 1 0]⟩⟩

/-- A narrow peak of tension in the middle. -/
def peak : LoadCase ℚ :=
  ⟨some ⟨false, [axial 0 0, axial (49/100) 0, axial (1/2) 1000, axial (51/100) 0, axial 1 0]⟩⟩

/-- One rod of length 1 with the two load cases. -/
def peakObj : AS4100 ℚ :=
  ⟨some ⟨[⟨[(1, slack), (2, peak)], some (Num.flt 1), rod (1/100)⟩]⟩, none, 20, [⟨1/100, steel⟩], 90/100, 85/100, 1⟩

/-- One rod of the given length under constant tension in load case 1. -/
def constObj (l : Num ℚ) (n : ℚ) : AS4100 ℚ :=
  ⟨some ⟨[⟨[(1, ⟨some ⟨false, [axial 0 n, axial 1 n]⟩⟩)], some l, rod (1/100)⟩]⟩, none, 20, [⟨1/100, steel⟩],
    90/100, 85/100, 1⟩

/-- The design capacity of the thin rod. -/
def thinCap : ℚ := 4974073419394996875 / 70368744177664

end BeamDesign.Samples
