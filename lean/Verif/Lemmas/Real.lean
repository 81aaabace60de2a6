import Verif.Model.Real
import Mathlib.Tactic.Positivity
import Mathlib.Tactic.FieldSimp
import Mathlib.Tactic.NormNum
import Mathlib.Tactic.Ring
import Mathlib.Tactic.GCongr
import Mathlib.Tactic.Linarith

/-!
# Facts on the Python float operations over the reals
-/

namespace BeamDesign

theorem piD_pos : (0 : ℝ) < piD := by unfold piD; norm_num

theorem rdiv_ok {a b : ℝ} (h : b ≠ 0) : rdiv a b = .ok (a / b) := if_neg h

theorem rdiv_zero (a : ℝ) : rdiv a 0 = .error .zeroDivision := if_pos rfl

theorem rsqrt_ok {x : ℝ} (h : 0 ≤ x) : rsqrt x = .ok (√x) := if_neg (not_lt.2 h)

theorem Except.bind_ok' {α β : Type} (a : α) (f : α → Py β) : (Except.ok a >>= f) = f a := rfl

theorem Except.bind_error' {α β : Type} (e : PyErr) (f : α → Py β) :
    ((Except.error e : Py α) >>= f) = .error e := rfl

theorem Except.ok_inj' {α : Type} {a b : α} : (Except.ok a : Py α) = .ok b ↔ a = b :=
  ⟨fun h => by injection h, fun h => by rw [h]⟩

end BeamDesign
