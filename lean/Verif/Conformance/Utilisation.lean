import Verif.Conformance.AS4100

/-!
# The tests of `tension_utilisation` in `tests/test_AS4100.py` run on the model
-/

namespace BeamDesign.Conformance

/-- `AS4100(beam=Beam(elements=Element.constant_load_element(length=1.0, section=s, N=load)), ..)` -/
def constN (load : ℚ) : Py (AS4100 ℚ) := ofBeam do
  let e ← Element.constantLoadElement 0 0 0 load 0 0 0 (d 1) (← circle (2 / 100))
  Beam.new (.single e)

-- 583 test_AS4100_tension_utilisation
example : gives (do (← constN 100000).tensionUtilisation rt .none .none) (rt.div 100000 (timesArea9 (250 * 10 ^ 6) (2 / 100))) = true := by
  decide +kernel

-- 877 test_AS4100_tension_utilisation5
example : gives (do (← constN (-100000)).tensionUtilisation rt .none .none) 0 = true := by decide +kernel

/-- one element of length `l` with the load cases given by the forces at the positions -/
def forced (l r : ℚ) (cases : List (ℤ × List (ℚ × ℚ))) : Py (Element ℚ (Sect ℚ)) := do
  let lcs ← cases.mapM fun c => do return (c.1, ← lcase (c.2.map fun x => [x.1, x.2, x.2, x.2, x.2, x.2, x.2]))
  Element.new lcs (some (d l)) (← circle r)

/-- `Beam(elements=[..])` -/
def beamS (es : List (Py (Element ℚ (Sect ℚ)))) : Py BeamS := do
  let l ← es.mapM id
  Beam.new (.list (l.map some))

/-- the rows of `get_loads(load_case=c, min_positions=20, component="N")` -/
def forces (b : Py BeamS) (c : ℤ) : Py (List (ℚ × ℚ)) := do
  match ← (← b).getLoads rt c .none (some 20) (.name "N") with
  | some t => t.rows.mapM fun r =>
      match r.2 with
      | [some x] => .ok (r.1, x)
      | _ => .error .typeError
  | none => .error .typeError

/-- `max(load[..., 1])` of the rows at a position -/
def maxAt (rows : List (ℚ × ℚ)) (p : ℚ) : ℚ :=
  match (rows.filter fun r => decide (r.1 = p)).map (·.2) with
  | [] => 0
  | x :: xs => xs.foldl max x

/-- the loops of the tests over positions: the utilisation at each position is that of the largest force in the cases looked at -/
def utilAtEach (b : Py BeamS) (cases : List ℤ) (arg : CaseArg) (cap : ℚ → ℚ) : Bool :=
  passes (do return (← ofBeam b, ← cases.mapM (forces b))) fun x =>
    match x.2 with
    | [] => false
    | first :: _ => decide (first ≠ []) && (first.map (·.1)).all fun p =>
      gives (x.1.tensionUtilisation rt arg (.scalar ⟨p, false⟩))
        (rt.div ((x.2.map fun rows => maxAt rows p).foldl max 0) (cap p))

/-- the beam of test 2 -/
def beam2 : Py BeamS := beamS [forced 1 (2 / 100) [(1, [(0, 100000), (1 / 2, 150000), (1 / 2, 200000)])]]

/-- the capacity of test 2 -/
def cap2 : ℚ := timesArea9 (250 * 10 ^ 6) (2 / 100)

-- 606 test_AS4100_tension_utilisation2
example : gives (do (← ofBeam beam2).tensionUtilisation rt .none .none) (rt.div 200000 cap2) = true := by decide +kernel
example : gives (do (← ofBeam beam2).tensionUtilisation rt (.one 1) .none) (rt.div 200000 cap2) = true := by decide +kernel
example : utilAtEach beam2 [1] .none (fun _ => cap2) = true := by decide +kernel
example : utilAtEach beam2 [1] (.one 1) (fun _ => cap2) = true := by decide +kernel

/-- the beam of test 3 -/
def beam3 : Py BeamS := beamS [forced (1 / 2) (2 / 100) [(1, [(0, 100000), (1, 150000)])], forced (1 / 2) (3 / 100) [(1, [(0, 200000), (1, 150000)])]]

/-- the capacity in tests 3, 4 and 6 -/
def cap3 (p : ℚ) : ℚ := if p ≤ 1 / 2 then cap2 else timesArea9 (240 * 10 ^ 6) (3 / 100)

-- 663 test_AS4100_tension_utilisation3
example : gives (do (← ofBeam beam3).tensionUtilisation rt .none .none) (rt.div 200000 cap2) = true := by decide +kernel
example : gives (do (← ofBeam beam3).tensionUtilisation rt (.one 1) .none) (rt.div 200000 cap2) = true := by decide +kernel
example : utilAtEach beam3 [1] .none cap3 = true := by decide +kernel
example : utilAtEach beam3 [1] (.one 1) cap3 = true := by decide +kernel

/-- the beam of test 4 -/
def beam4 : Py BeamS := beamS
  [forced (1 / 2) (2 / 100) [(1, [(0, 100000), (1, 150000)]), (2, [(0, 200000), (1, 150000)])],
    forced (1 / 2) (3 / 100) [(1, [(0, 200000), (1, 150000)]), (2, [(0, 100000), (1, 150000)])]]

-- 733 test_AS4100_tension_utilisation4
example : gives (do (← ofBeam beam4).tensionUtilisation rt .none .none) (rt.div 200000 cap2) = true := by decide +kernel
example : gives (do (← ofBeam beam4).tensionUtilisation rt (.one 1) .none) (rt.div 200000 cap2) = true := by decide +kernel
example : utilAtEach beam4 [1, 2] .none cap3 = true := by decide +kernel
example : utilAtEach beam4 [1] (.one 1) cap3 = true := by decide +kernel
example : utilAtEach beam4 [2] (.one 2) cap3 = true := by decide +kernel

/-- the beam of test 6: the beam of test 4 with a third load case, in compression -/
def beam6 : Py BeamS := beamS
  [forced (1 / 2) (2 / 100) [(1, [(0, 100000), (1, 150000)]), (2, [(0, 200000), (1, 150000)]), (3, [(0, -100000000)])],
    forced (1 / 2) (3 / 100) [(1, [(0, 200000), (1, 150000)]), (2, [(0, 100000), (1, 150000)]), (3, [(0, -100000000)])]]

-- 895 test_AS4100_tension_utilisation6
example : gives (do (← ofBeam beam6).tensionUtilisation rt .none .none) (rt.div 200000 cap2) = true := by decide +kernel
example : gives (do (← ofBeam beam6).tensionUtilisation rt (.one 1) .none) (rt.div 200000 cap2) = true := by decide +kernel
example : utilAtEach beam6 [1, 2] .none cap3 = true := by decide +kernel
example : utilAtEach beam6 [1] (.one 1) cap3 = true := by decide +kernel
example : utilAtEach beam6 [2] (.one 2) cap3 = true := by decide +kernel

end BeamDesign.Conformance
