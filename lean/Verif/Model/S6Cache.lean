import Verif.Model.S6

/-!
# The caches and the shared result dictionaries of `beamdesign/codecheck/as4100/S6.py`

`r_ol`, `f_euler_torsion` and `f_oxz` are wrapped in `functools.lru_cache()` (S6.py 115, 137, 296): at most
128 results are kept, the least recently used is dropped, exceptions are not kept.  `f_oxz` returns a
dictionary that holds another dictionary under `"Intermediate"`; the callers of `f_oxz` write into that inner
dictionary and hand it on, so it is shared between the cache and all results.

Dictionaries live in a heap; an address is an index.  Result dictionaries that are created for one call and
not shared (`{"f_oc": …}`, `{"N_cz": …}`, the results of `s6_1_1_Nc`) are values.
Simplification: the key of a cache entry is the tuple of argument values (Python also distinguishes the order
of the keywords, which is the order of the signature in all calls made by this file).
-/

namespace BeamDesign.S6

/-- values in an `"Intermediate"` dictionary.  `text` of a list of roots is `str(results)`, S6.py 721. -/
inductive Val
  | num (x : ℝ)
  | str (s : String)
  | nums (l : List ℝ)
  | text (l : List ℂ)

/-- a Python dictionary with string keys: pairs in order of insertion -/
abbrev Dict := List (String × Val)

/-- `d.update({k: v})` -/
def Dict.set (k : String) (v : Val) : Dict → Dict
  | [] => [(k, v)]
  | (k', v') :: d => if k' = k then (k, v) :: d else (k', v') :: Dict.set k v d

/-- `d.get(k)` -/
def Dict.get (k : String) : Dict → Option Val
  | [] => Option.none
  | (k', v') :: d => if k' = k then some v' else Dict.get k d

/-- the arguments of `r_ol`, S6.py 115-116 -/
structure RKey where
  rx : ℝ
  ry : ℝ
  xo : ℝ
  yo : ℝ

/-- the arguments of `f_euler_torsion`, S6.py 137-150 -/
structure TKey where
  A : ℝ
  lez : ℝ
  rx : ℝ
  ry : ℝ
  xo : ℝ
  yo : ℝ
  J : ℝ
  Iw : ℝ
  E : ℝ
  G : ℝ

/-- the arguments of `f_oxz`, S6.py 296-310 -/
structure FKey where
  An : ℝ
  lex : ℝ
  lez : ℝ
  rx : ℝ
  ry : ℝ
  xo : ℝ
  yo : ℝ
  J : ℝ
  Iw : ℝ
  E : ℝ
  G : ℝ

/-- What outlives a call: the inner dictionaries, the dictionaries returned by `f_oxz` (the address of the
inner one and the value under `"f_oxz"`) and the three caches, most recently used entry first. -/
structure St where
  inner : List Dict
  outer : List (ℕ × ℝ)
  cRol : List (RKey × ℝ)
  cTor : List (TKey × ℝ)
  cFoxz : List (FKey × ℕ)

/-- the state after `import` -/
def St.init : St := ⟨[], [], [], [], []⟩

/-- a Python computation that may raise and changes the state, also when it raises -/
def M (α : Type) := St → Py α × St

namespace M

/-- return a value -/
def ret {α : Type} (a : α) : M α := fun s => (.ok a, s)

/-- sequencing; an exception skips the rest -/
def andThen {α β : Type} (x : M α) (f : α → M β) : M β := fun s =>
  match x s with
  | (.ok a, s') => f a s'
  | (.error e, s') => (.error e, s')

instance : Monad M where
  pure := ret
  bind := andThen

/-- a computation that does not touch the state -/
def lift {α : Type} (x : Py α) : M α := fun s => (x, s)

end M

/-- `maxsize` of `functools.lru_cache()` -/
def maxsize : ℕ := 128

open Classical in
/-- `lru_cache`, a hit: the value, and the cache with the entry moved to the front -/
noncomputable def lruGet {κ β : Type} (k : κ) (c : List (κ × β)) : Option (β × List (κ × β)) :=
  match c.find? (fun e => e.1 = k) with
  | some e => some (e.2, e :: c.filter (fun e => e.1 ≠ k))
  | Option.none => Option.none

/-- `lru_cache`, storing a new result: the oldest entry is dropped when the cache is full -/
def lruPut {κ β : Type} (k : κ) (v : β) (c : List (κ × β)) : List (κ × β) := (k, v) :: c.take (maxsize - 1)

/-- `functools.lru_cache()` around `body`: `get` and `put` select the cache -/
noncomputable def cached {κ β : Type} (get : St → List (κ × β)) (put : List (κ × β) → St → St) (k : κ)
    (body : M β) : M β := fun s =>
  match lruGet k (get s) with
  | some (v, c) => (.ok v, put c s)
  | Option.none =>
    match body s with
    | (.ok v, s') => (.ok v, put (lruPut k v (get s')) s')
    | (.error e, s') => (.error e, s')

/-- S6.py 115-134 `r_ol` -/
noncomputable def rolM (k : RKey) : M ℝ :=
  cached St.cRol (fun c s => { s with cRol := c }) k (M.lift (rsqrt (k.rx * k.rx + k.ry * k.ry + k.xo * k.xo + k.yo * k.yo)))

/-- S6.py 137-175 `f_euler_torsion` -/
noncomputable def torM (k : TKey) : M ℝ :=
  cached St.cTor (fun c s => { s with cTor := c }) k do
    let ro ← rolM ⟨k.rx, k.ry, k.xo, k.yo⟩
    let a ← M.lift (rdiv (k.G * k.J) (k.A * ro * ro))
    let b ← M.lift (rdiv (piD * piD * k.E * k.Iw) (k.G * k.J * (k.lez * k.lez)))
    return a * (1 + b)

/-- a new inner dictionary -/
def allocInner (d : Dict) : M ℕ := fun s => (.ok s.inner.length, { s with inner := s.inner ++ [d] })

/-- a new dictionary of the kind `f_oxz` returns -/
def allocOuter (a : ℕ) (f : ℝ) : M ℕ := fun s => (.ok s.outer.length, { s with outer := s.outer ++ [(a, f)] })

/-- `d["Intermediate"]` and `d["f_oxz"]` of a dictionary returned by `f_oxz` -/
def readOuter (o : ℕ) : M (ℕ × ℝ) := fun s =>
  match s.outer[o]? with
  | some p => (.ok p, s)
  | Option.none => (.error .outsideModel, s)

/-- `.update({k: v})` on the inner dictionary at an address -/
def update (a : ℕ) (k : String) (v : Val) : M Unit := fun s =>
  (.ok (), { s with inner := s.inner.modify a (Dict.set k v) })

/-- S6.py 296-361 `f_oxz`: the address of the dictionary it returns -/
noncomputable def foxzM (k : FKey) : M ℕ :=
  cached St.cFoxz (fun c s => { s with cFoxz := c }) k do
    let ro ← rolM ⟨k.rx, k.ry, k.xo, k.yo⟩
    let q ← M.lift (rdiv k.xo ro)
    let beta := 1 - q ^ 2
    let fox ← M.lift (fEuler k.E k.lex k.rx)
    let foz ← torM ⟨k.An, k.lez, k.rx, k.ry, k.xo, k.yo, k.J, k.Iw, k.E, k.G⟩
    let h ← M.lift (rdiv 1 (2 * beta))
    let r ← M.lift (rsqrt ((fox + foz) ^ 2 - 4 * beta * fox * foz))
    let a ← allocInner [("β", .num beta), ("f_ox", .num fox), ("f_oz", .num foz), ("r_x", .num k.rx),
      ("r_y", .num k.ry), ("x_o", .num k.xo), ("y_o", .num k.yo), ("r_ol", .num ro)]
    allocOuter a (h * (fox + foz - r))

/-- the result of the `f_oc` functions: `{"f_oc": …, "Intermediate": …}` -/
structure StressResult where
  foc : ℝ
  inter : ℕ

/-- the arguments `f_oxz` gets for buckling about x -/
def Member.keyX (m : Member) : FKey := ⟨m.An, m.lex, m.lez, m.rx, m.ry, m.xo, m.yo, m.J, m.Iw, m.E, m.G⟩

/-- the arguments `f_oxz` gets for buckling about y -/
def Member.keyY (m : Member) : FKey := ⟨m.An, m.ley, m.lez, m.ry, m.rx, m.yo, m.xo, m.J, m.Iw, m.E, m.G⟩

/-- the arguments of `f_euler_torsion` -/
def Member.keyT (m : Member) : TKey := ⟨m.An, m.lez, m.rx, m.ry, m.xo, m.yo, m.J, m.Iw, m.E, m.G⟩

/-- S6.py 364-458 `f_oc_double_symmetric` -/
noncomputable def focDoubleM (m : Member) (sym : Symmetry) : M StressResult := do
  let o ← foxzM (Member.keyX m)
  let foz ← torM (Member.keyT m)
  let (a, f) ← readOuter o
  update a "f_oxz" (.num f)
  update a "f_oz" (.num foz)
  update a "AS4600 Clause" (.str "AS4600 S3.4.3")
  let k ← M.lift sym.symmetry
  update a "Symmetry" (.str k.name)
  return ⟨min f foz, a⟩

/-- S6.py 461-577 `f_oc_single_symmetric` -/
noncomputable def focSingleM (m : Member) (sym : Symmetry) : M StressResult := do
  let n ← M.lift sym.symcount
  if n ≠ 1 then M.lift (.error .typeError)
  else if (sym.axes.getD []).any (Axis.isStr "x") then do
    let o ← foxzM (Member.keyX m)
    let (a, f) ← readOuter o
    update a "Axis of Symmetry" (.str "x")
    update a "f_oxz" (.num f)
    let k ← M.lift sym.symmetry
    update a "Symmetry" (.str k.name)
    update a "AS4600 Clause" (.str "AS4600 S3.4.3")
    return ⟨f, a⟩
  else do
    let o ← foxzM (Member.keyY m)
    let (a, f) ← readOuter o
    update a "Axis of Symmetry" (.str "y")
    update a "f_oxz" (.num f)
    let k ← M.lift sym.symmetry
    update a "Symmetry" (.str k.name)
    update a "AS4600 Clause" (.str "AS4600 S3.4.3")
    return ⟨f, a⟩

/-- S6.py 580-625 `f_oc_point_symmetric` -/
noncomputable def focPointM (m : Member) : M StressResult := do
  let f ← torM (Member.keyT m)
  let a ← allocInner [("AS4600 Clause", .str "AS4600 S3.4.4")]
  return ⟨f, a⟩

/-- S6.py 628-732 `f_oc_unsymmetric` -/
noncomputable def focUnsymM (roots : Roots) (m : Member) : M StressResult := do
  let fox ← M.lift (fEuler m.E m.lex m.rx)
  let foy ← M.lift (fEuler m.E m.ley m.ry)
  let ro ← rolM ⟨m.rx, m.ry, m.xo, m.yo⟩
  let foz ← torM (Member.keyT m)
  let a := ro ^ 2 - m.xo ^ 2 * m.yo ^ 2
  let b := ro ^ 2 * (fox + foy + foz) - (foy * m.xo ^ 2 + fox * m.yo ^ 2)
  let c := ro ^ 2 * (fox * foy + foy * foz + fox * foz)
  let d := ro ^ 2 * fox * foy * foz
  let f ← M.lift (match minStress (roots a (-b) c (-d)) with
    | Option.none => .error .exception
    | some z => if z.im = 0 then .ok z.re else .error .outsideModel)
  let i ← allocInner [("AS4600 Clause", .str "S3.4.5"), ("Equation", .nums [a, -b, c, -d]),
    ("Solutions", .text (roots a (-b) c (-d))), ("f_ox", .num fox), ("f_oy", .num foy), ("f_oz", .num foz),
    ("a", .num a), ("b", .num b), ("c", .num c), ("d", .num d)]
  return ⟨f, i⟩

/-- the result of `s6_3_3_N_c_torsion`: `{"N_cz": …, "Intermediate": …}` -/
structure TorsionResult where
  Ncz : ℝ
  inter : ℕ

/-- S6.py 796-865: the choice of the clause -/
noncomputable def focM (roots : Roots) (m : Member) (sym : Symmetry) : M StressResult := do
  match ← M.lift sym.symmetry with
  | .double => focDoubleM m sym
  | .single => focSingleM m sym
  | .point => focPointM m
  | .none => focUnsymM roots m

/-- S6.py 735-887 `s6_3_3_N_c_torsion` -/
noncomputable def NcTorsionM (roots : Roots) (m : Member) (kf fy : ℝ) (sym : Symmetry) (uncertainty : ℝ) :
    M TorsionResult := do
  let r ← focM roots m sym
  let p ← M.lift (columnCurve fy r.foc)
  update r.inter "f_oc" (.num r.foc)
  update r.inter "λ_c" (.num p.1)
  update r.inter "f_n" (.num p.2)
  return ⟨uncertainty * Ae m.An kf * p.2, r.inter⟩

/-- S6.py 895-1046 `s6_1_1_Nc`: the numbers and the address under `"N_cz Intermediate"` -/
noncomputable def NcM (roots : Roots) (a : NcArgs) : M (NcResult × Option ℕ) := do
  let ae := Ae a.An a.kf
  let ns := Ns ae a.fy
  let phiNs := a.phi * ns
  if a.calcBuckling then do
    let bx ← M.lift (NcFlexural a.An a.kf (le a.l a.kex) a.rx a.fy a.fref a.alphaB)
    let by' ← M.lift (NcFlexural a.An a.kf (le a.l a.key) a.ry a.fy a.fref a.alphaB)
    let ncx := min bx.Nc ns
    let ncy := min by'.Nc ns
    let nc := min (min ns ncx) ncy
    let phiNc := min (min phiNs (a.phi * ncx)) (a.phi * ncy)
    if a.calcTorsion then do
      let t ← NcTorsionM roots a.member a.kf a.fy a.sym a.uncertainty
      update t.inter "N_cz_buckling" (.num t.Ncz)
      let ncz := min ns t.Ncz
      let nc' := min nc ncz
      return (⟨ns, phiNs, some ncx, some (a.phi * ncx), some ncy, some (a.phi * ncy), some t.Ncz, some ncz,
        some (a.phi * ncz), nc', a.phi * nc'⟩, some t.inter)
    else
      return (⟨ns, phiNs, some ncx, some (a.phi * ncx), some ncy, some (a.phi * ncy), Option.none, Option.none,
        Option.none, nc, phiNc⟩, Option.none)
  else
    return (⟨ns, phiNs, Option.none, Option.none, Option.none, Option.none, Option.none, Option.none,
      Option.none, ns, phiNs⟩, Option.none)

/-- The public functions of the file that use the caches. -/
inductive Call
  | rol (k : RKey)
  | torsionStress (k : TKey)
  | foxz (k : FKey)
  | focDouble (m : Member) (sym : Symmetry)
  | focSingle (m : Member) (sym : Symmetry)
  | focPoint (m : Member)
  | focUnsym (m : Member)
  | ncTorsion (m : Member) (kf fy : ℝ) (sym : Symmetry) (uncertainty : ℝ)
  | nc (a : NcArgs)

/-- the numbers a call returns -/
inductive Numbers
  | num (x : ℝ)
  | nc (r : NcResult)

/-- what a call returns: numbers, and the address of the dictionary of intermediate results, if any -/
structure Answer where
  numbers : Numbers
  inter : Option ℕ

/-- one call.  For `f_oxz` the number is what is found under `"f_oxz"` in the returned dictionary. -/
noncomputable def Call.exec (roots : Roots) : Call → M Answer
  | .rol k => do return ⟨.num (← rolM k), Option.none⟩
  | .torsionStress k => do return ⟨.num (← torM k), Option.none⟩
  | .foxz k => do
    let o ← foxzM k
    let p ← readOuter o
    return ⟨.num p.2, some p.1⟩
  | .focDouble m sym => do
    let r ← focDoubleM m sym
    return ⟨.num r.foc, some r.inter⟩
  | .focSingle m sym => do
    let r ← focSingleM m sym
    return ⟨.num r.foc, some r.inter⟩
  | .focPoint m => do
    let r ← focPointM m
    return ⟨.num r.foc, some r.inter⟩
  | .focUnsym m => do
    let r ← focUnsymM roots m
    return ⟨.num r.foc, some r.inter⟩
  | .ncTorsion m kf fy sym unc => do
    let r ← NcTorsionM roots m kf fy sym unc
    return ⟨.num r.Ncz, some r.inter⟩
  | .nc a => do
    let r ← NcM roots a
    return ⟨.nc r.1, r.2⟩

/-- What can happen in a program: a call, a caller changing or removing an entry of a dictionary of
intermediate results, a caller changing the entry `"f_oxz"` of a dictionary returned by `f_oxz`, or a caller
emptying the caches (`r_ol.cache_clear()` and so on). -/
inductive Event
  | call (c : Call)
  | write (a : ℕ) (k : String) (v : Val)
  | delete (a : ℕ) (k : String)
  | writeOuter (o : ℕ) (f : ℝ)
  | clearRol
  | clearTor
  | clearFoxz

/-- the effect of an event; the exception of a failing call is caught by the program -/
noncomputable def Event.step (roots : Roots) (e : Event) (s : St) : St :=
  match e with
  | .call c => (c.exec roots s).2
  | .write a k v => { s with inner := s.inner.modify a (Dict.set k v) }
  | .delete a k => { s with inner := s.inner.modify a (List.filter fun e => e.1 ≠ k) }
  | .writeOuter o f => { s with outer := s.outer.modify o fun p => (p.1, f) }
  | .clearRol => { s with cRol := [] }
  | .clearTor => { s with cTor := [] }
  | .clearFoxz => { s with cFoxz := [] }

/-- the state after a history of events -/
noncomputable def runEvents (roots : Roots) : List Event → St → St
  | [], s => s
  | e :: es, s => runEvents roots es (e.step roots s)

end BeamDesign.S6
