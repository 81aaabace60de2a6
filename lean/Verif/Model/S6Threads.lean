import Verif.Model.S6Cache

/-!
# The functions of `beamdesign/codecheck/as4100/S6.py` called from several threads

CPython may switch to another thread between any two operations on shared data.  Here a running function is a
sequence of single steps on the state that all threads share (the caches and the dictionaries reachable from
them); between two steps of one thread any number of steps of other threads may come.  One step is one
operation that CPython performs without giving up the interpreter lock: looking a key up in a cache, storing a
result in a cache, creating a dictionary, reading an entry, `dict.update` with string keys.  Numbers held in local
variables are not shared, so calculations with them are not steps.

`functools.lru_cache` (CPython, `Modules/_functoolsmodule.c`, `bounded_lru_cache_wrapper`): the look-up and the
storing are single steps, the wrapped function runs in between without a lock.  When another thread has stored
the same key in the meantime the cache is left as it is and the caller gets the result it calculated.

The functions are the ones of `Verif.Model.S6Cache`; C110 proves that a function that runs without
interruption does what it does there.
-/

namespace BeamDesign.S6

/-- A running function: either it has returned (or raised), or it will do one step, which changes the shared
state with `act`, and go on with `next`, which depends on what the step saw. -/
inductive Proc (α : Type)
  | done (r : Py α)
  | more (act : St → St) (next : St → Proc α)

namespace Proc

/-- sequencing; an exception skips the rest -/
def andThen {α β : Type} (p : Proc α) (f : α → Proc β) : Proc β :=
  match p with
  | .done (.ok a) => f a
  | .done (.error e) => .done (.error e)
  | .more act next => .more act fun s => (next s).andThen f

instance : Monad Proc where
  pure a := .done (.ok a)
  bind := andThen

/-- a calculation with local variables -/
def lift {α : Type} (x : Py α) : Proc α := .done x

/-- one step on the shared state -/
def step {α : Type} (x : M α) : Proc α := .more (fun s => (x s).2) fun s => .done (x s).1

/-- `try: … except Exception as e: …`: the outcome of a call, kept -/
def attempt {α : Type} : Proc α → Proc (Py α)
  | .done r => .done (.ok r)
  | .more act next => .more act fun s => (next s).attempt

/-- a function that runs without interruption -/
def alone {α : Type} : Proc α → M α
  | .done r, s => (r, s)
  | .more act next, s => (next s).alone (act s)

end Proc

/-- the step that stores a result: nothing is changed when the key is there already -/
noncomputable def store {κ β : Type} (get : St → List (κ × β)) (put : List (κ × β) → St → St) (k : κ) (v : β) :
    M Unit := fun s =>
  (.ok (), match lruGet k (get s) with
    | some _ => s
    | Option.none => put (lruPut k v (get s)) s)

/-- `functools.lru_cache()` around `body` -/
noncomputable def cachedP {κ β : Type} (get : St → List (κ × β)) (put : List (κ × β) → St → St) (k : κ)
    (body : Proc β) : Proc β :=
  .more
    (fun s => match lruGet k (get s) with
      | some (_, c) => put c s
      | Option.none => s)
    (fun s => match lruGet k (get s) with
      | some (v, _) => .done (.ok v)
      | Option.none => do
        let v ← body
        Proc.step (store get put k v)
        return v)

/-- S6.py 115-134 `r_ol` -/
noncomputable def rolP (k : RKey) : Proc ℝ :=
  cachedP St.cRol (fun c s => { s with cRol := c }) k
    (Proc.lift (rsqrt (k.rx * k.rx + k.ry * k.ry + k.xo * k.xo + k.yo * k.yo)))

/-- S6.py 164-175, the calculation in `f_euler_torsion` -/
noncomputable def torBodyP (k : TKey) : Proc ℝ := do
  let ro ← rolP ⟨k.rx, k.ry, k.xo, k.yo⟩
  let a ← Proc.lift (rdiv (k.G * k.J) (k.A * ro * ro))
  let b ← Proc.lift (rdiv (piD * piD * k.E * k.Iw) (k.G * k.J * (k.lez * k.lez)))
  return a * (1 + b)

/-- S6.py 137-175 `f_euler_torsion` -/
noncomputable def torP (k : TKey) : Proc ℝ :=
  cachedP St.cTor (fun c s => { s with cTor := c }) k (torBodyP k)

/-- S6.py 335-361, the calculation in `f_oxz` -/
noncomputable def foxzBodyP (k : FKey) : Proc ℕ := do
  let ro ← rolP ⟨k.rx, k.ry, k.xo, k.yo⟩
  let q ← Proc.lift (rdiv k.xo ro)
  let beta := 1 - q ^ 2
  let fox ← Proc.lift (fEuler k.E k.lex k.rx)
  let foz ← torP ⟨k.An, k.lez, k.rx, k.ry, k.xo, k.yo, k.J, k.Iw, k.E, k.G⟩
  let h ← Proc.lift (rdiv 1 (2 * beta))
  let r ← Proc.lift (rsqrt ((fox + foz) ^ 2 - 4 * beta * fox * foz))
  let a ← Proc.step (allocInner [("β", .num beta), ("f_ox", .num fox), ("f_oz", .num foz), ("r_x", .num k.rx),
    ("r_y", .num k.ry), ("x_o", .num k.xo), ("y_o", .num k.yo), ("r_ol", .num ro)])
  Proc.step (allocOuter a (h * (fox + foz - r)))

/-- S6.py 296-361 `f_oxz`: the address of the dictionary it returns -/
noncomputable def foxzP (k : FKey) : Proc ℕ :=
  cachedP St.cFoxz (fun c s => { s with cFoxz := c }) k (foxzBodyP k)

/-- S6.py 364-458 `f_oc_double_symmetric` -/
noncomputable def focDoubleP (m : Member) (sym : Symmetry) : Proc StressResult := do
  let o ← foxzP (Member.keyX m)
  let foz ← torP (Member.keyT m)
  let p ← Proc.step (readOuter o)
  Proc.step (update p.1 "f_oxz" (.num p.2))
  Proc.step (update p.1 "f_oz" (.num foz))
  Proc.step (update p.1 "AS4600 Clause" (.str "AS4600 S3.4.3"))
  let k ← Proc.lift sym.symmetry
  Proc.step (update p.1 "Symmetry" (.str k.name))
  return ⟨min p.2 foz, p.1⟩

/-- S6.py 544-577 `f_oc_single_symmetric`, after the choice of the axis -/
noncomputable def singleTailP (k : FKey) (axis : String) (sym : Symmetry) : Proc StressResult := do
  let o ← foxzP k
  let p ← Proc.step (readOuter o)
  Proc.step (update p.1 "Axis of Symmetry" (.str axis))
  Proc.step (update p.1 "f_oxz" (.num p.2))
  let k ← Proc.lift sym.symmetry
  Proc.step (update p.1 "Symmetry" (.str k.name))
  Proc.step (update p.1 "AS4600 Clause" (.str "AS4600 S3.4.3"))
  return ⟨p.2, p.1⟩

/-- S6.py 461-577 `f_oc_single_symmetric` -/
noncomputable def focSingleP (m : Member) (sym : Symmetry) : Proc StressResult := do
  let n ← Proc.lift sym.symcount
  if n ≠ 1 then Proc.lift (.error .typeError)
  else if (sym.axes.getD []).any (Axis.isStr "x") then singleTailP (Member.keyX m) "x" sym
  else singleTailP (Member.keyY m) "y" sym

/-- S6.py 580-625 `f_oc_point_symmetric` -/
noncomputable def focPointP (m : Member) : Proc StressResult := do
  let f ← torP (Member.keyT m)
  let a ← Proc.step (allocInner [("AS4600 Clause", .str "AS4600 S3.4.4")])
  return ⟨f, a⟩

/-- S6.py 628-732 `f_oc_unsymmetric` -/
noncomputable def focUnsymP (roots : Roots) (m : Member) : Proc StressResult := do
  let fox ← Proc.lift (fEuler m.E m.lex m.rx)
  let foy ← Proc.lift (fEuler m.E m.ley m.ry)
  let ro ← rolP ⟨m.rx, m.ry, m.xo, m.yo⟩
  let foz ← torP (Member.keyT m)
  let a := ro ^ 2 - m.xo ^ 2 * m.yo ^ 2
  let b := ro ^ 2 * (fox + foy + foz) - (foy * m.xo ^ 2 + fox * m.yo ^ 2)
  let c := ro ^ 2 * (fox * foy + foy * foz + fox * foz)
  let d := ro ^ 2 * fox * foy * foz
  let f ← Proc.lift (match minStress (roots a (-b) c (-d)) with
    | Option.none => .error .exception
    | some z => if z.im = 0 then .ok z.re else .error .outsideModel)
  let i ← Proc.step (allocInner [("AS4600 Clause", .str "S3.4.5"), ("Equation", .nums [a, -b, c, -d]),
    ("Solutions", .text (roots a (-b) c (-d))), ("f_ox", .num fox), ("f_oy", .num foy), ("f_oz", .num foz),
    ("a", .num a), ("b", .num b), ("c", .num c), ("d", .num d)])
  return ⟨f, i⟩

/-- S6.py 796-865: the choice of the clause -/
noncomputable def focP (roots : Roots) (m : Member) (sym : Symmetry) : Proc StressResult := do
  match ← Proc.lift sym.symmetry with
  | .double => focDoubleP m sym
  | .single => focSingleP m sym
  | .point => focPointP m
  | .none => focUnsymP roots m

/-- S6.py 735-887 `s6_3_3_N_c_torsion`; the `update` of S6.py 885 is one step -/
noncomputable def NcTorsionP (roots : Roots) (m : Member) (kf fy : ℝ) (sym : Symmetry) (uncertainty : ℝ) :
    Proc TorsionResult := do
  let r ← focP roots m sym
  let p ← Proc.lift (columnCurve fy r.foc)
  Proc.step do
    update r.inter "f_oc" (.num r.foc)
    update r.inter "λ_c" (.num p.1)
    update r.inter "f_n" (.num p.2)
  return ⟨uncertainty * Ae m.An kf * p.2, r.inter⟩

/-- S6.py 895-1046 `s6_1_1_Nc` -/
noncomputable def NcP (roots : Roots) (a : NcArgs) : Proc (NcResult × Option ℕ) := do
  let ae := Ae a.An a.kf
  let ns := Ns ae a.fy
  let phiNs := a.phi * ns
  if a.calcBuckling then do
    let bx ← Proc.lift (NcFlexural a.An a.kf (le a.l a.kex) a.rx a.fy a.fref a.alphaB)
    let by' ← Proc.lift (NcFlexural a.An a.kf (le a.l a.key) a.ry a.fy a.fref a.alphaB)
    let ncx := min bx.Nc ns
    let ncy := min by'.Nc ns
    let nc := min (min ns ncx) ncy
    let phiNc := min (min phiNs (a.phi * ncx)) (a.phi * ncy)
    if a.calcTorsion then do
      let t ← NcTorsionP roots a.member a.kf a.fy a.sym a.uncertainty
      Proc.step (update t.inter "N_cz_buckling" (.num t.Ncz))
      let ncz := min ns t.Ncz
      let nc' := min nc ncz
      return (⟨ns, phiNs, some ncx, some (a.phi * ncx), some ncy, some (a.phi * ncy), some t.Ncz, some ncz,
        some (a.phi * ncz), nc', a.phi * nc'⟩, some t.inter)
    else
      return (⟨ns, phiNs, some ncx, some (a.phi * ncx), some ncy, some (a.phi * ncy), Option.none, Option.none,
        Option.none, nc, phiNc⟩, Option.none)
  else
    return (⟨ns, phiNs, Option.none, Option.none, Option.none, Option.none, Option.none, Option.none,
      Option.none, ns, phiNs⟩, Option.none)

/-- one call.  For `f_oxz` the number is what is found under `"f_oxz"` in the returned dictionary. -/
noncomputable def Call.proc (roots : Roots) : Call → Proc Answer
  | .rol k => do return ⟨.num (← rolP k), Option.none⟩
  | .torsionStress k => do return ⟨.num (← torP k), Option.none⟩
  | .foxz k => do
    let o ← foxzP k
    let p ← Proc.step (readOuter o)
    return ⟨.num p.2, some p.1⟩
  | .focDouble m sym => do
    let r ← focDoubleP m sym
    return ⟨.num r.foc, some r.inter⟩
  | .focSingle m sym => do
    let r ← focSingleP m sym
    return ⟨.num r.foc, some r.inter⟩
  | .focPoint m => do
    let r ← focPointP m
    return ⟨.num r.foc, some r.inter⟩
  | .focUnsym m => do
    let r ← focUnsymP roots m
    return ⟨.num r.foc, some r.inter⟩
  | .ncTorsion m kf fy sym unc => do
    let r ← NcTorsionP roots m kf fy sym unc
    return ⟨.num r.Ncz, some r.inter⟩
  | .nc a => do
    let r ← NcP roots a
    return ⟨.nc r.1, r.2⟩

/-- A thread that makes calls one after the other and keeps the outcome of each, also of those that raise. -/
noncomputable def threadP (roots : Roots) : List Call → Proc (List (Py Answer))
  | [] => return []
  | c :: cs => do
    let r ← (c.proc roots).attempt
    let rs ← threadP roots cs
    return r :: rs

/-- What happens next in a program with threads: a step of one of the threads, or something else the program
does in between, such as a call that is not interrupted, a change of a dictionary of intermediate results, or
emptying a cache. -/
inductive Tick
  | run (i : ℕ)
  | other (e : Event)

/-- the shared state, and how far each thread has come -/
structure Pool where
  st : St
  threads : List (Proc (List (Py Answer)))

/-- one tick; nothing happens when the thread does not exist or has ended -/
noncomputable def Tick.step (roots : Roots) (t : Tick) (p : Pool) : Pool :=
  match t with
  | .run i =>
    match p.threads[i]? with
    | some (.more act next) => ⟨act p.st, p.threads.set i (next p.st)⟩
    | _ => p
  | .other e => ⟨e.step roots p.st, p.threads⟩

/-- a schedule -/
noncomputable def runTicks (roots : Roots) : List Tick → Pool → Pool
  | [], p => p
  | t :: ts, p => runTicks roots ts (t.step roots p)

/-- all threads at their start -/
noncomputable def Pool.start (roots : Roots) (s : St) (threads : List (List Call)) : Pool :=
  ⟨s, threads.map (threadP roots)⟩

end BeamDesign.S6
