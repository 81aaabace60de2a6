import Verif.Model.Sharing
import Verif.Spec.Load

/-!
# Specification: objects that stay valid
-/

namespace BeamDesign.Spec

variable {K : Type} [Field K] [LinearOrder K]

/-- Every object is what its constructor demands: load cases have ascending positions between 0 and 1, elements have no
negative length, beams have elements, and these all list the same load cases in the same order. -/
structure AllValid (s : Store K) : Prop where
  cases : ∀ c < s.cases.length, ∃ lc, s.caseNow c = some lc ∧ ∀ t, lc.loads = some t → WellFormed t.rows
  elems : ∀ e < s.elems.length, ∃ el, s.elemNow e = some el ∧ ∀ l, el.length = some l → 0 ≤ l.val
  beams : ∀ b < s.beams.length, ∃ bm, s.beamNow b = some bm ∧ bm.elements ≠ [] ∧
    ∀ e ∈ bm.elements, ∀ e' ∈ bm.elements, e.loads.map (·.1) = e'.loads.map (·.1)

/-- Some load case stores the array `a`. -/
def Stored (s : Store K) (a : ℕ) : Prop := some a ∈ s.cases

/-- Some beam uses the list `l`. -/
def InUse (s : Store K) (l : ℕ) : Prop := l ∈ s.beams

/-- The dict of an element. -/
def dictOf (s : Store K) (e : ℕ) : Option ℕ := s.elems[e]?.map (·.1)

/-- In every beam, the dict `d` belongs to all elements or to none. -/
def Uniform (s : Store K) (d : ℕ) : Prop :=
  ∀ l ∈ s.beams, ∀ es, s.lists[l]? = some es →
    (∀ e ∈ es, dictOf s e = some d) ∨ (∀ e ∈ es, dictOf s e ≠ some d)

/-- The operation does not write around the constructors' checks: no array of a load case, no list of a beam, no negative
length; load cases are added to or removed from a dict only if no beam has elements with this dict beside elements with
another one. -/
def Careful (s : Store K) : Op K → Prop
  | .writeRow a _ _ => ¬ Stored s a
  | .setLength _ l => ∀ x, l = some x → 0 ≤ x.val
  | .dictSet d k _ => (∃ kv c, s.dicts[d]? = some kv ∧ (k, c) ∈ kv) ∨ Uniform s d
  | .dictDel d _ => Uniform s d
  | .listAppend l _ | .listSet l _ _ | .listDel l _ => ¬ InUse s l
  | _ => True

/-- All operations of the history are careful, each in the situation it meets. -/
def CarefulRun (s : Store K) : List (Op K) → Prop
  | [] => True
  | o :: h => Careful s o ∧ CarefulRun (Op.exec s o) h

end BeamDesign.Spec
