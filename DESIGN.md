# Formal model of BeamDesign: design

Everything below `lean/Verif/` is Lean 4. The repository in `/repo` is read as text only.
Properties are listed in `properties.jsonl` (C01 ...), their status in `MANIFEST.json`,
experiments with seeded bugs in `seeded/LOG.jsonl`.

## Layout

| path | content |
|---|---|
| `Verif/Py.lean` | Python exceptions as values (`PyErr`, `Py`), numbers tagged int/float (`Num`), `sorted(set(..))`, Python indexing |
| `Verif/Numpy.lean` | the few numpy functions used: `interp`, `linspace`, `diff`, `vstack`, integer truncation on assignment; the run-time record `Rt` |
| `Verif/Model/*.lean` | the model, function by function; each definition cites file and lines |
| `Verif/Spec/*.lean` | small specifications used by theorem statements, written without the model's helpers |
| `Verif/Lemmas/*.lean` | helper lemmas |
| `Verif/Props/*.lean` | the property theorems, named `Cnn_...`, each with an `example` showing its hypotheses are met |
| `Verif/Conformance/*.lean` | the repository's own tests run on the model (see below); no claim rests on them |

## Modelling decisions

* **Numbers.** Load, beam and material code is modelled over an arbitrary linearly ordered field `K`
  (theorems hold for ℚ, ℝ, ...), examples run in ℚ. Where floating point rounding matters the arithmetic of
  the code goes through the record `Rt K` (`add`, `sub`, `mul`, `div`), so a theorem can be about exact arithmetic
  (`Rt.Exact`), any monotone rounding, or a concrete IEEE binary64 round-to-nearest-even. Formula modules (S5, S6)
  use ℝ with real square roots and powers.
* **int versus float.** `isinstance(x, float)` is observable (an `int` position is not treated as one position), so
  positions and lengths carry an `isInt` tag; load tables carry a numpy dtype tag (int or float), because
  assignment into an integer array truncates.
* **Exceptions** are values of `Py α = Except PyErr α`. Every error branch of the code is in the model.
* **Unstable sort.** `numpy.argsort()` without `kind` may order ties in any way: it is a field of `Rt`, of which only
  "a permutation, sorted by key" is assumed.
* **Solvers** are loops with explicit fuel only where the Python loop can run forever (`max_its=None`).
* **lru_cache** in S6 is modelled as a heap of dictionaries plus a bounded cache, so that histories of calls can be
  quantified over.

## Trusted base

* Lean 4.33.0's kernel. Every property theorem depends on a subset of `propext`, `Classical.choice`, `Quot.sound`
  (check with `#print axioms`); there is no `sorry`, no own axiom, no `native_decide`, no `bv_decide`. Concrete
  witnesses are evaluated with `decide +kernel`, which is evaluation by the kernel.
* Mathlib definitions that occur in statements: ordered fields, `ℝ`, `ℂ`, `Real.sqrt`, `Real.rpow`, `List.Perm`, continuity.
* The reading of Python and numpy semantics in `Py.lean`, `Numpy.lean` and `Float64.lean` (`Rt.binary64`: round to nearest,
  ties to even, with gradual underflow and without overflow). Python's `sum` is modelled as it was up to 3.11 and as it is
  from 3.12 on (`PySum`, a field of the run-time); theorems for `Rt.Exact` hold for all versions, theorems about
  `Rt.binary64` are for Python up to 3.11 unless C117 carries them over.
* For threads (C110, C111): in CPython one operation on a dictionary with string keys (look-up, `update`, creation) and
  one access to an `lru_cache` (look-up, insertion) is not interrupted by another thread; a switch may come between any
  two of them. The model takes every such operation as a step of its own, which allows at least the schedules CPython
  has.
* The translation of the code into the model, made by hand; each definition cites file and lines.
* Assumptions about run time inputs that appear as theorem hypotheses, never as axioms: `Rt.SortOK` (numpy's argsort
  returns a permutation sorted by key), `Rt.Exact` (exact arithmetic) or a monotone rounding, and for unsymmetric
  sections a function `Roots` standing for `numpy.roots`.

### What is modelled

| file in /repo/beamdesign | modelled | not modelled |
|---|---|---|
| `loadcase.py` | all of it: `__init__`, `_set_loads`, `loads`, `load_positions`, `num_positions`, the three single position helpers, `get_load`, `list_positions`, `constant_load` (`Model/LoadCase`, `Model/LoadSingle`; storage in `Model/Memory`), `__repr__` (`Model/Repr`) | how numpy prints an array; what is reported for a case made from an array of more than two dimensions or with entries that are not numbers (what is accepted: `Model/Arrays`) |
| `element.py` | constructor, load cases, `get_loads`, `load_positions`, `empty_element`, `constant_load_element` (`Model/Beam`), `__repr__` (`Model/Repr`) | |
| `beam.py` | all methods (`Model/Beam`; storage in `Model/Memory`, objects shared with the caller in `Model/Sharing`; `__repr__` in `Model/Repr`) | |
| `const.py`, `utility/exceptions.py` | enumerations, exception classes (`PyErr`) | exception messages |
| `utility/interp.py` | `multi_interp` for the calls made by `get_load` (`Model/LoadCase`), all arguments (`Model/Interp`); `C89_get_load_partial` relates the two | rows of different lengths |
| `utility/solvers.py` | `bisection`, `secant` (`Model/Solvers`), and again on doubles with overflow, underflow, infinities and nan (`Model/Solvers64`); `tension_utilisation` with the latter (`Model/Util64`), and with all its other operations on such doubles too (`Model/Full64`) | the sign of zero |
| `utility/symmetry.py` | `Symmetry` (`Model/S6`), `__str__`, `__repr__` (`Model/Repr`) | axes given as something else than a list or a string (`Model/Axes`) |
| `materials/material.py` | constructor, `__eq__`, `load_material`, `load_list` (`Model/Material`, `Model/MaterialEq`), `_load_helper` with files as bytes and encodings (`Model/Files`), `__repr__` (`Model/Repr`) | errors of the operating system other than a missing file |
| `materials/material.toml` | its text (`Model/Texts`) and the parsed table (`Model/Shipped`) | |
| `sections/*.py` | `Circle`; whether `HollowCircle` can be instantiated (`Model/Material`, `Model/Effective`), `Circle.__repr__` (`Model/Repr`) | `HollowCircle.radius_i` setter (no instance can exist) |
| `codecheck/codecheck.py` | everything `AS4100` inherits (`Model/AS4100`) | the abstract method bodies |
| `codecheck/as4100/as4100.py` | everything (`Model/AS4100`, `Model/Defaults`; storage in `Model/Memory`, object references in `Model/Objects`; `get_defaults` in `Model/Files`) | non-numeric factors |
| `codecheck/as4100/as4100.toml` | its text (`Model/Texts`) and the parsed table (`Model/Defaults`) | |
| the `toml` package (third party) | the part of TOML the two files use (`Model/Toml`) | dotted keys, escapes, literal strings, inline tables, dates, other arrays |
| `codecheck/as4100/as4100_sect_props.py` | classes (`Model/SectProps`), local buckling functions (`Model/Effective`, defaults in `Model/Preset`; over a rounded arithmetic in `Model/RoundedEffective`) | |
| `codecheck/as4100/S5.py`, `S5_Shear.py` | all functions, as exact values (`Model/S5`) and operation by operation over a rounded arithmetic (`Model/Rounded`), with overflow and underflow in `Model/Ieee` and complex results in `Model/Complex` | results outside the range of normal doubles |
| `codecheck/as4100/S6.py` | all functions, as values (`Model/S6`) with caches and shared dictionaries (`Model/S6Cache`), called from several threads (`Model/S6Threads`), and the whole member capacity over a rounded arithmetic (`Model/Rounded`, `Model/RoundedTorsion`, `Model/RoundedMember`, `Model/RoundedUnsym`), with overflow and underflow in `Model/Ieee` and complex results in `Model/Complex` and `Model/ComplexUnsym` | `numpy.roots` itself |
| `codecheck/as4100/S7.py` | all functions (`Model/S7`), with arguments left out (`Model/Calls`) | |

Values that the model does not describe raise `PyErr.outsideModel`; no theorem claims anything about Python there.

### Places where the code contradicts a property or its own documentation

Each is a theorem (a concrete witness, or a statement for every input), next to the part that does hold.

| theorem | what happens |
|---|---|
| `C17_counterexample` | elements of lengths 0.1 and 0.2: the position `beam.length` is rejected, because of rounding |
| `C19_counterexample`, `C19_actual` | a zero length element whose table does not run from 0 to 1 lists wrong local positions |
| `C20_counterexample` | a table of ints truncates beam positions when written into |
| `C20_zero_length` | a table of ints on a zero-length element raises `TypeError` when loads are read |
| `C23_counterexample` | `AS4100.get_section(min_positions=..)` raises for every beam |
| `C30_counterexample`, `C30_phiNtu_actual` | `φNtu` is φ times the yield capacity |
| `C33_counterexample` | `tension_utilisation` checks all load cases at the positions of the first one: a peak can be missed |
| `C34_int_counterexample`, `C34_counterexample` | utilisation raises for an integer first length, and for tensions near zero |
| `C37_counterexample` | bisection raises when both ends have the same sign, with roots inside |
| `C40_args_counterexample` | the fall back of `secant` raises `TypeError` when there are extra positional arguments |
| `C43_unsymmetric_counterexample`, `C58_single_counterexample` | the cubic for unsymmetric sections is dimensionally wrong |
| `C49_int_scalar` | `v_w` given as an int raises |
| `C51_counterexample` | with `α_b = -1` (and every `α_b` below -796591/840000) a longer member can be stronger |
| `C55_overwritten_result`, `C56_counterexample`, `C56_stale_counterexample` | results share cached dictionaries |
| `C57_no_axes_counterexample` | `Symmetry()` cannot be classified |
| `C59_tube_counterexample` | `s6_2_A_e_CHS` always raises |
| `C60_*_counterexample` | design sections are not updated with the beam |
| `C61_width_counterexample` | an unloaded case gives two columns, whatever is asked for |
| `C63_counterexample` | the relative tolerance of `math.isclose` overrides `tol` |
| `C74_counterexample` | a thicker rod can be weaker: the tabulated strengths step down (a property of the standard, not a defect of the code) |
| `C84_counterexample`, `C84_counterexample_loads` | a load stored at 0.1 of a length of 3.0 is not found again after the conversion to a beam position and back, because of rounding: a rod loaded to 1.41 of its capacity passes the check at 0.74 |
| `C81_converse_counterexample` | at a joint the tension of a strong element is compared with the capacity of the weak one: a beam that is nowhere overloaded can fail the check (conservative) |
| `C87_slenderness_counterexample`, `C87_area_counterexample` | the local buckling functions take 250.0 (MPa) as default reference stress, all others and the materials use pascals: with shipped strengths slendernesses are 1000 times (tubes 10^6 times) too large |
| `C89_unsorted_counterexample` | `multi_interp` documents a `ValueError` for unsorted data and never raises it |
| `C89_array_counterexample` | `multi_interp` compares an array with `[]`: from numpy 1.25 on two or more points raise `ValueError`, from 2.2 on any array does.  `get_load` calls it with arrays; the other models assume numpy before 1.25 (the code is of 2019) |
| `C90_loads_counterexample` | `LoadCase.loads` hands out the stored array: a write into it leaves positions the constructor refuses |
| `C90_dict_counterexample` | a load case added to one element's dict after `Beam(...)`: the beam lists it and raises `KeyError` when asked for it |
| `C90_length_counterexample` | `Element.length` is a plain attribute: after `e.length = -1` the beam is shorter than its first element |
| `C90_list_counterexample` | `Beam` keeps the caller's list: emptied later, the beam has no elements and `load_cases` raises `IndexError` |
| `C91_cases_counterexample` | with two assessment points a peak of the second load case is missed, with three it is found |
| `C91_error_counterexample` | with two assessment points there is a utilisation, with three `ValueError`: the third point meets a tiny tension |
| `C92_counterexample` | in double precision a member with the required area for 11000 N has a design capacity below 11000 N |
| `C94_counterexample` | `s7_5_a_min_thickness` documents a default safety factor but has an annotation in its place: without the argument it raises `TypeError` |
| `C96_counterexample` | beyond the slenderness limit the shear capacity of a web falls with its depth: a 10 mm grade 250 web carries less at 2 m than at 1 m |
| `C98_counterexample` | `_load_helper` opens the file without an encoding: a UTF-8 file with a property `φ` loads on a machine with code page 1252, but under another name |
| `C101_counterexample` | beyond 4.33 times the limiting slenderness a wider or stronger tube has less effective section |
| `C102_counterexample` | in double precision `α_s` is 0 for `M_s = 2^27 M_o`, and `M_o` is 0 (then `α_s` raises `ZeroDivisionError`) for a large negative `β_x` |
| `C104_counterexample` | in double precision `s6_3_3_α_c` gives 0 at `λ_n = 6.92815493` and more than 1.5 at `λ_n = 6.9281553` with the default `α_b`; the formula gives 1 |
| `C105_counterexample`, `C105_swapped_counterexample` | the intermediate results of a section symmetric about y hold its y data under `r_x`, `f_ox` and so on |
| `C105_axis_counterexample` | after a call for a section symmetric about x, the results of a doubly symmetric section with the same data name a single axis of symmetry |
| `C106_complex_counterexample` | in double precision a doubly symmetric section with `f_ox` and `f_oz` agreeing to eight digits gives a complex stress and the capacity is a `TypeError` |
| `C106_cancel_counterexample` | in double precision `f_oxz` is 0 for stresses 1 and 2^60, and the capacity a division by zero |
| `C106_step_counterexample` | for `f_y` = 300 MPa and the double nearest to 300/2.25 MPa the slenderness is rounded to 1.5 and the stress is that of the other branch of the column curve, 0.04 % off |
| `C108_counterexample` | A steel with a yield stress just above 2.25 f_oc gives a smaller torsional buckling capacity than one of exactly 2.25 f_oc: the two branches of the column curve do not meet at λ_c = 1.5 (the constants 0.658 and 0.877 are rounded). |
| `C109_beam_counterexample` | `repr` of a beam with an element without a length raises TypeError |
| `C109_element_counterexample` | `repr` of an element shows the section where it says material (`element.py:207`) |
| `C109_material_counterexample` | materials with different properties have the same text |
| `C111_counterexample` | between the updates of one call another thread updates the same cached dictionary |
| `C114_counterexample` | the member capacity of a stout column of slenderness 6.928 with `α_b = 1` is computed as 0 in double precision; the formulas give the squash load |
| `C115_counterexample` | `s5_6_1_M_o` raises `ZeroDivisionError` for a length so small that its square underflows |
| `C116_counterexample`, `C116_units_counterexample`, `C116_millimetres_counterexample` | `f_oc_unsymmetric` gives no real stress in millimetres: the cubic has `x_o² y_o²` where the standard has `x_o² + y_o²` |
| `C117_counterexample` | elements 0.1, 1.8 and 2.0 long: `tension_utilisation()` works up to Python 3.11 and raises `PositionNotInBeamError` from 3.12 on, where `sum` corrects rounding errors and the last element ends beyond `Beam.length` |
| `C117_dropped_counterexample` | ten elements 0.1 long: from Python 3.12 on `get_loads(position=beam.length)` returns `None` |
| `C118_counterexample` | a member with equal radii of gyration and a shear centre close to the centroid: in double precision `f_oc_unsymmetric` solves a cubic without a real root near the stress and returns a complex number |
| `C121_counterexample` | a three dimensional array of loads is accepted with positions in any order, and so are `None` and strings (beside a `None`) as loads |
| `C122_counterexample`, `C122_large_counterexample` | between rows `2 ^ -1070` apart the reported load overflows to an infinity; so it does for loads of `2 ^ e` and rows `2 ^ -g` apart with `e + g = 1023` |
| `C128_counterexample` | loads entered with whole numbers only: the reported position is cut to a whole number, at 1 in metres but at 1500 in millimetres |
| `C132_cases_counterexample` | asked about two load cases at once, a rod is reported with another utilisation after it is cut in two |
| `C136_counterexample` | with a negative `I_y`, `s5_6_1_M_o`, `s5_6_α_s` and `s5_6_1_Mb` return complex numbers and raise nothing |
| `C136_slenderness_counterexample` | for a negative yield stress `s6_3_3_λ_n` and `s6_2_λ_e_flatplate` return complex numbers |
| `C136_unsymmetric_counterexample` | for an unsymmetric section with a shear centre far from both axes (in the unit used) the buckling stress and the torsional capacity are complex numbers, and nothing is raised |
| `C136_angle_counterexample` | an unequal angle in millimetres: for small uncertainty factors `s6_1_1_Nc` returns a complex `N_c` |
| `C137_nan_counterexample` | with a nan tolerance `bisection` returns the middle of the bracket without calling the function |
| `C137_overflow_counterexample` | with the default guesses and a change of sign in the outer half of the range the bracket becomes infinite and `bisection` never finds it |
| `C137_underflow_counterexample` | with a tolerance of 2⁻⁵⁴⁵ the product of two values underflows and `bisection` reports a point where nothing changes sign |
| `C137_endless_counterexample` | with tolerance 0 and no limit of iterations `bisection` never ends |
| `C138_nan_counterexample` | with a nan tolerance `secant` raises `UnboundLocalError` for every function |
| `C138_no_root_counterexample` | `secant` reports a root of a function that is nowhere below 1 |
| `C142_counterexample` | tension_utilisation on IEEE doubles without an upper limit on the data: for a rod of radius 2^300 the product of area and tensile strength overflows, the factor kt has no effect, and the check returns 1/π under a tension of more than 300000 times the true design capacity |
| `C146_refused` | tension_utilisation on a beam of two rods of 0.1 and 0.2: the rounded end of the beam is further from the start of the second rod than the rod is long, so the check raises PositionNotInElementError instead of returning a utilisation |
| `C150_counterexample` | the last digit of the utilisation in doubles changes from metres to millimetres |
| `C152_web_counterexample` | in doubles a slender web of 253 MPa comes out weaker in shear than one of 252 MPa, in the last digit |
| `C152_column_counterexample` | in doubles a column longer by one unit in the last place comes out stronger |
| `C152_segment_counterexample` | the same for a segment in bending, although its reference buckling moment is smaller |
| `C153_counterexample` | with the unit of force halved the last digit of a reference buckling moment changes |
| `C154_counterexample` | in doubles a stocky column has no capacity and a slightly longer one has more than 1.5 times its squash load |
| `C155_counterexample` | up to Python 3.11 the error of `Beam.length` grows with the number of elements: a hundred elements of 0.1 are shorter than 10 by 2e-14, and 1 with any number of 2^-53 is 1 |
| `C159_counterexample` | From Python 3.12 on, a rod of 0.1, 1.8 and 2.0: `list_positions(min_positions=20)` finds positions that `list_positions` and `get_loads` refuse with `PositionNotInBeamError`, because the last element ends beyond the corrected length |
| `C66_counterexample` | `s5_6_1_Mb` is not limited to the section capacity |
| `C21_loads_property_is_shared` | writing into `LoadCase.loads` changes the load case |

## The repository's own tests run on the model

Whether the model says what the code does is not something Lean can prove. As a check, `Verif/Conformance/` evaluates the
model, in double precision and in the kernel, on the inputs of the tests in `/repo/tests`, and compares the results with the
values those tests expect, with the tolerances the tests use. The test files are read as text. They are tests of the model and
no claim depends on them.

| module | tests |
|---|---|
| `LoadCase` | `test_loadcase.py` |
| `Beam` | `test_beam.py`, `test_element.py` |
| `Material` | `test_material.py`, `test_circle.py`, `test_AS4100_sectprops.py` |
| `AS4100`, `Utilisation` | `test_AS4100.py` |
| `Utility` | `test_interp.py`, the parabolas of `test_solver.py` |
| `S5`, `S6`, `S6Member`, `S7` | `test_AS4100_5.py`, `test_AS4100_6.py`, `test_AS4100_7.py`: every row of every table |
| `Sheets` | `test_AS4100_5_Shear.py` and `test_AS4100_s7_Nt`, from every row of `Excel/AS4100 Verification.xlsx` |

The last two lines are written by `tools/conformance.py`. All of them pass. Left out: tests with random inputs, solver tests
of `exp`, `sin` and `cos`, and `test_interface.py`. For unsymmetric sections the smallest root of the cubic is found by
Newton's method instead of `numpy.roots`; `0.658 ** x` is evaluated from its series.

## Per property plan

| id | what is modelled | how it is proved |
|---|---|---|
| C01 | `_set_loads` as a total function from raw tables to `Py LoadCase` | case analysis, `iff` with an independent well-formedness predicate |
| C02 | `list_positions` on tagged numbers | insertion sort and de-duplication lemmas |
| C03 | `list_positions(min_positions)` + `linspace` | membership and cardinality of equally spaced points, all n |
| C04 | `get_load`, all five branches, abstract unstable sort | sorted lists with equal key-fibres are equal; refinement to a specification |
| C05 | same | corollary of C04 |
| C06 | `np.interp`, `multi_interp` | induction over the knots |
| C07 | same | convexity |
| C08 | `constant_load` | from C04/C06 |
| C09 | component resolution | naturality of every branch in the columns |
| C10 | same | from C04 |
| C11 | `Beam.__init__`, `_check_elements` | case analysis over arbitrary lists |
| C12 | `element_ends`, `length` under arbitrary rounding | induction over elements |
| C13 | `in_elements` | tiling invariant, induction |
| C14 | the two conversions, python indexing | field algebra |
| C15 | `Beam.list_positions` explicit | refinement to a specification |
| C16 | `Beam.list_positions(min_positions)` | same |
| C17 | binary64 instance of `Rt` | refuted by a concrete beam (0.1, 0.2); partial theorem for exact arithmetic |
| C18 | `Beam.get_loads`, `vstack`, dtype join | induction over the listed positions |
| C19 | zero-length branch with numpy broadcasting | refuted by a witness; partial theorem for tables from 0 to 1 |
| C20 | integer truncation on assignment | refuted by a witness; partial theorem for float tables; exact report for every mixture of tables (`C20_reported`, `Spec/IntLoads.lean`) |
| C21 | heap of arrays: which results are views of the stored table | invariant over all query histories |
| C22 | `get_section`, `get_as4100_section` | refinement to specification |
| C23 | `AS4100.get_section` | refuted; partial for `position=` |
| C24 | `_get_f` | induction over the table |
| C25 | same | from C24 |
| C26 | material.toml as a literal table | C24/C25 plus a complete check of the finite table |
| C27 | `Material.load_*` over an abstract parsed file | list/dict induction |
| C28 | `AS4100Section.__init__`, factory, `AS4100.__init__` | case analysis |
| C29 | `Nty, Ntu, Nt` | minimum over lists |
| C30 | `φNt, φNty, φNtu` | refuted for φNtu; partial for the others |
| C31 | `get_tension` | from C18 |
| C32 | `tension_utilisation` including the secant iteration | exact two step convergence on the linear residual |
| C33 | same | refuted by a two-case beam; partial for one load case |
| C34 | same, with int/float tags | refuted (integer length, tiny load); partial theorem with hypotheses |
| C35-C37 | `bisection` | loop invariants; intermediate value theorem; refutation for even roots |
| C38-C40 | `secant` | loop invariants; refutation for extra positional arguments |
| C41-C42 | `S7.py`, `AS4100.s7_*` | ordered field algebra |
| C43 | S5, S5_Shear, S6, S7 formulas | algebra on real powers; refuted for `f_oc_unsymmetric` |
| C44-C49 | `S5.py`, `S5_Shear.py` | real analysis |
| C50-C54 | `S6.py` | real analysis |
| C55-C56 | `S6.py` with heap and cache | invariant over histories; refutation for shared dictionaries |
| C57-C58 | `Symmetry`, dispatch, `f_oc_unsymmetric` | case analysis; refutation for the cubic |
| C59 | local buckling functions, `HollowCircle` | real analysis; refutation (abstract class) |
| C60 | object with mutable sections | refuted after mutation; invariant when sections are not replaced |
| C61 | `get_load` on an unloaded case | refuted for the column count; partial for the rows |
| C62 | `tension_utilisation` | from C32 |
| C63 | `bisection`, with the relative tolerance of `math.isclose` | refuted for large brackets; partial when the relative tolerance is below `tol` |
| C64 | the single position helpers of `LoadCase` | refinement: looping over them gives `get_load` |
| C65 | `get_load`, `Beam.get_loads` | superposition: linearity of interpolation, induction over positions |
| C66 | `s5_6_1_Mb` with the factors it is given | refuted; exact condition |
| C67 | `s5_11_4_V_w_Interface`, `V_w_CHS` | algebra |
| C68 | `Material.__eq__` | dict equality as agreement of lookups; congruence through every query |
| C69 | `default_AS4100` from a parsed configuration | case analysis over arbitrary tables |
| C70 | `Beam` with an arbitrary prefix and suffix of elements | shift lemma for every listing step; composition with C18, C29, C32 |
| C71 | `tension_utilisation` without positions | C16 gives the points assessed; linear interpolation is bounded by its ends, and both ends of every piece are assessed |
| C72 | same, equal capacities | same; the greatest element of the set of stored rows |
| C73 | two AS4100 objects related by `NoLessTension` and `NoMoreCapacity` | same places listed (congruence), monotone interpolation, smaller minimum |
| C74 | `tension_capacity` of two objects | refuted at the edge of a band with the shipped grade 250 steel; partial within a band |
| C75 | `get_load`, `get_loads` with and without a row on the curve (`Redundant`) | closed form of the answers; the curve depends only on the rows next to the position |
| C76 | `get_loads` of a beam before and after `CutInto` | closed form of `get_loads` as a sum over elements (`getLoads_segs`); affine rescaling of tables; positive lengths only |
| C77 | `get_loads` of a beam and of its mirror image | the same closed form, reversed; positive lengths only |
| C78 | `get_load` with rounded interpolation | abstract error bounds `Rounds`, six roundings composed; `Rt.binary64` shown to satisfy them (overflow is not modelled) |
| C79 | `Beam(...)`, `list_positions`, `get_section`, `get_loads`, `get_tension`, `tension_utilisation` | equality of results for any arithmetic, by a congruence lemma over the two numbers |
| C80 | the same queries on two beams | the same congruence lemma with equal numbers |
| C81 | `tension_utilisation` against the load curves themselves | from C71, C72 and convexity between stored rows; the converse is refuted where a weak and a strong element meet |
| C82 | secant and utilisation over a rounding arithmetic (Model/Solvers, Model/AS4100) | error propagation through both secant steps, the termination test and the reciprocal; greatest element of perturbed values; binary64 instance from C78 |
| C83 | Model/Beam with an arbitrary rounding `rnd` after every operation | monotone rounding keeps every intermediate result within the element, then C78's error bound per block |
| C84 | Model/Beam and Model/AS4100 in binary64 | false: kernel evaluation of a rod where a peak of 1.41 times the capacity is reported as a utilisation of 0.74; proved for stored positions on the grid of machine numbers, for every monotone rounding |
| C85 | Model/AS4100 with an arbitrary rounding after every operation | relative errors of the products and of the minimum are accumulated; the sections considered are those of the exact elements because rounding is monotone; Mathlib's bounds of pi turn the double for pi into the true one |
| C86 | Model/AS4100, Model/Beam, Model/Solvers in binary64 | a utilisation that is returned covers every assessment point; the stored positions are assessment points since rounding leaves them alone; C82 and C85 bound the errors of utilisation and capacity; the curve is nowhere above the largest stored load |
| C87 | the calls with default arguments, `Model/Preset`; the strengths of the shipped materials | closed forms against 250 MPa; false for the local buckling functions (default 250.0), for every input; partial for the others and for stresses in MPa |
| C88 | the chain of calls as a relation, `Spec/Segment` | closed form 1.8 / (sqrt(1/Mo² + 3/Ms²) + 1/Mo), strictly monotone in both; C46 and C47 |
| C89 | all argument forms, `Model/Interp`, with the numpy versions that treat `array == []` differently | induction over the knots, uniqueness of the curve; false: unsorted data never raise, arrays raise with numpy 1.25 and newer; partial otherwise |
| C90 | the objects with the arrays, dicts and lists they share, `Model/Sharing` | invariant over all operations; false: arrays, dicts, lists and lengths can be changed behind the constructors' checks (`C90_*_counterexample`), partial theorem for histories without such writes |
| C91 | Model/AS4100 | C71's bound used in both directions; false for several load cases and when a further point meets a tiny tension, partial theorems for load cases with common stations |
| C92 | Model/S7 over a rounding arithmetic | relative errors through quotients, maximum, products and minimum; false by a last bit (11000 N on 250 MPa steel), partial theorems: relative error at most 2^-49, and areas larger by 2^-49 suffice |
| C93 | `NcFlexural` over ℝ at two materials | `N_c` is proportional to `n² α_c(n)` with `n` the nominal slenderness; its derivative is shown non-negative by bounding the elasticity of `α_c` by tangents, each a polynomial inequality with non-negative Bernstein coefficients (Lemmas/Slope, Lemmas/Yield); below slenderness 18.1, where `η` has a kink, two values are compared directly |
| C94 | calls with optional arguments (`Model/Calls`) | from `C41_inverse` by scaling; the missing default of `s7_5_a_min_thickness` is `C94_counterexample` |
| C95 | `AS4100.defaultFrom shippedDefaults` and `S7.NtCall`, `S7.AReqdCall` | unfolding for one design section, then `C41_inverse` and `C41_capacity_monotone` |
| C96 | `WebCapacity` as the product of the two modelled functions | closed form `ratio·min(yield, buckling)` and monotonicity of each; the depth clause is refuted and replaced by the exact shape of the capacity over depth |
| C97 | a lexer and a parser for the TOML the library's files use (`Model/Toml`), files as bytes (`Model/Files`); a separate grammar `Writes` in `Spec/Toml` | every piece of the grammar has known tokens and a known effect on the parser, composed by induction over the grammar |
| C98 | the platform's decoder is a parameter of the model; UTF-8 is Lean's own decoder, code page 1252 is written out | holds for files of ASCII characters under every encoding that reads ASCII, and for the defaults (opened as UTF-8) without condition; for materials with other characters it is refuted |
| C99 | the text of both files, character for character (`Model/Texts`) | the kernel evaluates the parser on them; the parser commutes with any conversion of the numbers |
| C100 | Model/Effective and Model/S6 | closed form of the effective area, then monotonicity of min; columns through the product form of C93 |
| C101 | Model/Effective | closed form in one parameter; proved while λ³ ≤ 81 ley³, refuted beyond |
| C102 | S5.py operation by operation over an abstract rounded arithmetic (`Model/Rounded`); the exact instance is `Model/S5` | error factors e^±t composed along the formula (`Lemmas/Acc`); the two cancellations bounded by the condition number; counterexamples in binary64 by kernel evaluation |
| C103 | S5_Shear.py operation by operation over an abstract rounded arithmetic (`Model/Rounded`) | error factors e^±t composed along the formulas; near the limit both branches are within the bound; induction over the welds |
| C104 | S6.py 39-61 and 185-286 operation by operation over an abstract rounded arithmetic (`Model/Rounded`); the exact instance is `Model/S6` | absolute errors through `α_a` and `λ` with the condition of the denominator, relative errors from there; `1 - (90/(ξλ))²` is bounded away from 0; kernel evaluation of the counterexamples in binary64 |
| C105 | the state of caches and dictionaries of `Model/S6Cache` | the invariant of C55/C56 gives a valid address and the cached section data; the writes after it are followed one by one; refuted for sections symmetric about y, whose entries are exchanged, and for the left-over axis entry |
| C106 | S6.py 100-175, 296-625 and 735-887 operation by operation over an abstract rounded arithmetic (`Model/RoundedTorsion`), with a complex value for the root of a negative number; the exact instance is `Model/S6` | relative errors of the two stresses, absolute error of `β` and of the discriminant, condition number for the two cancellations; the power by its logarithm; the side of 1.5 is the same when the slenderness is far enough; refuted by evaluating binary64 in the kernel |
| C107 | Spec/TorsionMono orders members by length and stiffness; `S6.foxz`, `foc`, `NcTorsion` and `Nc` on two ordered members. | The stress is the smaller root of (a - f)(b - f) = g f² with a, b the single-mode stresses; that root is monotone in a, b and g. The column curve and the minimum are monotone (C53, C54), the flexural part is C51. |
| C108 | `S6.columnCurve`, `NcTorsion` and `Nc` with two yield stresses. | x·0.658^x increases up to x = 9/4 because -ln 0.658 ≤ 4/9; at the step the curve is between 0.877 and 0.8774. The drop itself is a counterexample, hence partial. |
| C109 | `Model/Repr`: the texts, with the printing of numbers and arrays as a parameter and Python's repr of strings (quotes and escapes) in full | number texts have no commas, printed characters form a prefix code, so texts can be split from the left; refuted for beams without a length, the material of an element and the properties of a material |
| C110 | `Model/S6Threads`: functions as sequences of single steps on the shared caches and dictionaries, a pool of threads, a schedule as a list of ticks | rely and guarantee: every step keeps the cache entries correct and never changes a returned stress, so each thread may rely on what it read; a function run alone is proved equal to `Model/S6Cache`; the number of steps is bounded function by function |
| C111 | the threads of C110 with the dictionaries each thread has created and not put into the cache as its own | refuted by a schedule (`C111_counterexample`); what is left by rely and guarantee with ownership: a thread may rely on its own dictionaries, no step of another thread changes them, and every step keeps the section data of shared ones |
| C112 | the loop of `secant` in exact arithmetic, functions with bounded slopes (`Spec/Slopes`) | one step multiplies the distance to the root by at most M/m - 1; function values stay apart as long as the iterates do; induction over the number of steps that are left |
| C113 | the functions of as4100_sect_props.py 227-302 and 326-334 operation by operation over an arithmetic `A` (Model/RoundedEffective); a section of plates in Spec/RoundedEffective | `C113_exact`: with exact arithmetic they are the functions of Model/Effective; relative errors carried through products, quotients, roots, sums of positive numbers and minima (Lemmas/Acc), induction over the plates; the exact statements from monotonicity of rounding to double (`rnd64_mono`), for tubes with a lemma that `sqrt64 x ≥ 1` for `x ≥ 1` |
| C114 | `s6_1_1_Nc` operation by operation over an arithmetic `A` (Model/RoundedMember), on top of Model/Rounded and Model/RoundedTorsion; what is claimed in Spec/RoundedMember. Unsymmetric sections are not covered (`numpy.roots`) | `C114_exact`: with exact arithmetic it is `s6_1_1_Nc` of Model/S6; the lemmas behind C104 and C106 for lengths that are rounded already, minima and products with the calculus of Lemmas/Acc; `C114_governs` from monotonicity of rounding. False for stout columns: `C114_counterexample` (a computed capacity of 0 where the squash load governs), so partial |
| C115 | What a machine promises about doubles in Spec/Ieee (`Ieee`); an instance with gradual underflow and overflow in Model/Ieee; the functions are those of Model/Rounded, RoundedTorsion, RoundedEffective and RoundedMember | interval arithmetic on exponents: every intermediate result is shown to be a double between two powers of two (Lemmas/Ieee*), so that changing the arithmetic outside the normal range does not change the results; `C115_machine` shows that the machine's arithmetic meets the assumptions, `C115_counterexample` that the sizes matter |
| C116 | `focUnsym` of Model/S6 with an abstract root finder (`Roots.Exact`), the cubic of the standard in Spec/Unsymmetric | the smallest root by compactness; the mean of the three roots is shown to be beyond it, which excludes a complex pair being chosen; Dunkerley's bound; the cubic is affine in each stress, which gives the order. `C116_counterexample`: far from both axes, in the unit of length used, no real stress is returned; `C116_units_counterexample`: such a unit exists for every section; `C116_millimetres_counterexample`: an angle in millimetres |
| C117 | `pySum` in Model/Beam: CPython's `sum` before 3.12 and with the correction of Neumaier (floats only, or ints too), chosen by the field `sum` of the run-time | only `Beam.length` uses it, everything else is the same by unfolding; without rounding all corrections are 0; each correction is at most 4u of the length, by induction over the elements. `C117_counterexample`: elements of 0.1, 1.8 and 2.0; `C117_dropped_counterexample`: ten elements of 0.1 |
| C118 | Model/RoundedUnsym: the coefficients operation by operation over an `Arith`, then an exact root finder (stress) or one with a relative error (capacity); with exact operations it is Model/S6 (`C118_exact`) | the error of each coefficient against the cubic evaluated at its absolute terms, a bound of the cubic away from its smallest root from the gap to the other (possibly complex) roots, the intermediate value theorem; the column curve as in C106. `C118_counterexample`: two stresses that coincide give a complex result |
| C119 | Model/LoadCase, Model/Beam, Model/AS4100 with the type tags of tables | the types enter only through the position column and through the local positions of zero-length elements; induction over the loop of `get_loads` with the relation 'same loads'; then C81 and C72 for the beam with all tables as floats |
| C120 | Model/Special: the axial column as floats with nan and infinities, through `get_load`, the clamp of `get_tension` and the solver | agreement with the finite model by a relation through the loop of `get_loads`; a nan residual makes the solver raise |
| C121 | Model/Arrays: the checks of `_set_loads` for more than two dimensions and for entries that are not numbers | refuted (3-D arrays in any order, None as a load); exact acceptance conditions instead, and agreement with C01 on tables of numbers |
| C122 | Model/Overflow: every operation of `np.interp` followed by the overflow of doubles | refuted for positions 2^-1070 apart; proved for loads up to 2^e and positions at least 2^-g apart with e + g ≤ 1022 (and false for 1023), from bounds of the rounded slope |
| C123 | the models of `tension_utilisation` and of the queries for loads | from C65 row by row at each position, C31 for the clamping at zero and C32/C33 for the greatest value |
| C124 | the models of `tension_utilisation` and of the queries for loads | raising all loads by δ raises every reported load by δ; then C73 in both directions |
| C125 | the models of the queries for loads and of `tension_utilisation` | the scan of `np.interp` skips what lies before and stops at what lies after (induction over the table); the beam reaches only the located elements |
| C126 | the models of the queries for loads and of `tension_utilisation` | every step of the query takes the columns first; the positions do not depend on the other columns |
| C127 | the models of the queries for loads with rounded arithmetic | the place of a position among the stored ones does not depend on the values (induction over the table); the errors of the two orders of computation are added up; induction over the listed positions |
| C128 | the models of the whole tension check | every function on the way commutes with the change of units (inductions over elements, positions, tables and load cases); the root finder sees the same function. Load tables of whole numbers cut positions to whole numbers, which depends on the unit: refuted for the positions of reported loads |
| C129 | the model of the tension check | the overall utilisation is attained at a listed point (C33), there the governing load case has no smaller utilisation, and that one is not missed (C71) |
| C130 | `entered` in Spec/Again turns the reported array into the loads argument of a new load case | induction over the reported positions, each interpolated row being redundant in the sense of C75; `C130_again` needs no exact arithmetic |
| C131 | the positions of numpy's linspace as computed in doubles (`linspace64`), `Stands` in Spec/Spaced | error bound of the rounded step and product, smaller than half the spacing, so that the positions stay apart and inside |
| C132 | `Checked` and `SameFactors` in Spec/Divided, the redundant row, the cut and the mirrored beam of Spec/Mesh | every assessed value lies below a stored one (C91), every stored row of one description is assessed in the other; `C132_cases_counterexample` for several load cases |
| C133 | `HasRows` in Spec/Unloaded | every listed position has an entry for every element containing it, the None of an unloaded case is kept in the stacked array and cannot be compared with 0 |
| C134 | `eulerLoad`, `eulerStress`, `torsionStress` in Spec/Euler with Mathlib's π | bounds of π from Mathlib, the calculus of relative errors of C102 |
| C135 | `GentleLoads`, `NotTiny`, `TrulyNowhereAboveBy` in Spec/Anywhere | error of the position reported for a stored row, slope of the curve, then as C86 |
| C136 | the formulas again with values that are floats or complex numbers (`Model/Complex`, and `Model/ComplexUnsym` with numpy's order of complex numbers), `NeverComplex` in Spec/Complex | following each result; the denominator of α_a has no root on the axes, the root in f_oxz is of a number that is not negative; refuted for the bending chain; for unsymmetric sections the roots of the cubic (Vieta), then the sine of the angle of the column curve's power is not 0 |
| C137 | `bisection` again operation by operation on doubles with infinities and nan (`Model/Solvers64`); `Solves`, `lastWidth`, `Computes` in Spec/Solvers64 | the rounded midpoint stays in the bracket and shortens it by at least 1.999 as long as the ends are not close (relative error of sums and differences of doubles); the sign of a product of values above 2^-500 is not lost; intermediate value theorem for the real function; counterexamples by invariants of the stuck states and kernel evaluation |
| C138 | `secant` operation by operation on doubles (`Model/Solvers64`) | the errors of each step are enumerated; doubles with zero difference are close for every tolerance; the test before the loop and the test of the loop agree unless the tolerance is nan; induction over the loop |
| C139 | `utilOne` and `secant` on `Rt.binary64`; `Doubles`, `Slight` in Spec/UtilWide | one lemma for the error of a secant step on a function near `x m - 1` in units of the root; with it the error after the first pass (useless for large m, poor for small m), after the second and the further ones (below 600 units in the last place), for every m up to 4e11; beyond that the doubles absorb the 1 and the passes are computed exactly; the error alternative carried through the loops |
| C140 | `F64.utilFunc`, `F64.utilOne`, `AS4100.tensionUtilisation64` (Model/Util64) on the solvers of Model/Solvers64; `AnyDoubles`, `Enormous` in Spec/Util64 | the loop on doubles is compared pass by pass with the loop without overflow of C139, for guesses of the size that occurs: a pass is the same or ends with an error; a tension of more than 2^1000 times the capacity overflows in the first pass; between the limits nothing overflows |
| C141 | `AS4100.tensionUtilisation64`; `LoadsOnGrid` in Spec/Sound64, `TrulyNowhereAbove`, `TrulyNowhereAboveBy` of C86 and C135 | every stored load is reported at a position that is assessed (C86, C135); the utilisation there is found only if it is right (C140), which bounds the load |
| C142 | `AS4100.tensionUtilisationFull` in Model/Full64 repeats the check on `Flt` with the operations of `F64`, Python's `max` and `min` comparing in order so that nan is kept or lost as in the code; `DataUpTo`, `LoadsUpTo` in Spec/Full64 | products of data in the range stay below the overflow limit, so each capacity is the rounded one; at a stored load interpolation gives the load itself; an infinite or nan row cannot hide a finite one behind a maximum that compares as at most 1; with loads in the range the whole run is related step by step to that of C140 |
| C143 | `World`, `Change`, `World.after` of C60; `lastWritten` in Spec/Written | induction over the history |
| C144 | `LoadCase.numPositions`, `Beam.noElements`, `Beam.noLoadCases`, `Element.noLoadCases`, `Beam.length` | from the characterisations of the constructors (C01, C11) |
| C145 | `reprStr`, `Symmetry.repr` of C109; `Denotes`, `Literal` in Spec/Literal state the Python grammar of string literals | induction over the string; inversion of `Denotes` for uniqueness |
| C146 | as C141 and C142, without the condition `Marks` that element ends are doubles | the computed start of an element is at most twice the exact one (induction over the elements); a check that returns has listed every stored position of the first load case with its own element, at most `8 * 2^-53 * R` from the stored place; the sections considered there include that of the element; then as in C141. `C146_refused`: a beam for which the check raises |
| C147 | Element, Beam and AS4100 as modelled, any `Rt` | no step of the loop of `get_loads` can succeed; induction over the load cases of `utilLoop`: it gives an empty list or raises, and the maximum of an empty list raises |
| C148 | the state machine of C55 (heap of dictionaries, three LRU caches) | invariants preserved by every step, also by steps that raise: the sizes; and that the keys in front of an entry are distinct and among those asked for since; for what is forgotten, that the entries in front cover the keys asked for since or are all there are |
| C149 | LoadCase, Beam and AS4100 as modelled, any `Rt` that respects the factors, `Rt.binary64` for signs | each step of `np.interp` commutes with the factor; a single position needs no sorting, several positions use the closed form of `get_load`; induction over the listed positions |
| C150 | as C128, with `Rt.Wide` of `FloatWide.lean`: 53 digits and unlimited exponents, which is the arithmetic of doubles unless the result underflows (`C150_doubles`) | rounding commutes with powers of two (`C150_scales`); the proofs of C128 need no more than an arithmetic that passes on the factors (`Spec/Scales.lean`) |
| C151 | the model of C29 and C41 with rounded operations (`Spec.RoundsTo`), sections compared by radius and strengths only (`Spec/MonoRound.lean`) | every step is a product, quotient, minimum or maximum of nonnegative numbers, each monotone after rounding; the places listed do not depend on the sections |
| C152 | the operation by operation models of C102-C106 and C113 over an arithmetic of which only monotonicity is assumed (`Spec/OrderRound.lean`) | order is passed on by every operation; doubles are such an arithmetic, on the reals (`C152_double`) and with underflow and a computable root on the rationals (`C152_binary64`); the counterexamples are evaluated by the kernel |
| C153 | the operation by operation models of C102-C106, C113 and C114 over an arithmetic that passes on powers of two (`Spec/PowerFormulas.lean`) | every intermediate result is a power of two times its counterpart, with the exponent of its dimension; comparisons are between like dimensions; rounding to 53 digits passes on powers of two (`C153_double`) |
| C154 | the operation by operation models of C102-C104 and C114; the ranges are in `Spec/Reversal.lean` | the computed values are close to exact ones, which are in order (C51, C88, C93, C96, C107) |
| C155 | `sum` as in CPython's bltinmodule.c (`Model/Beam`, `Model/WeldSum`), in IEEE doubles without overflow | the correction of each addition is exact (`Lemmas/TwoSum`); an invariant bounds the uncorrected sum to the first and the corrected one to the second order; induction on the list; a counterexample for Python up to 3.11 |
| C156 | `Model/AS4100` over any run-time | the loop is one run over the pairs (induction on the load cases); each single check has at least one row, so its maximum exists; the final filters keep every row |
| C157 | `Model/Beam` and `Model/AS4100` over any run-time | the range check and the listing split by position (inductions on the list); every query maps over the listing, so it splits too; the minimum of a concatenation is the minimum of the minima |
| C158 | `Model/Beam` over any run-time | the loop is a listing, one table for each entry and a stack of tables; the listing splits by position (`C157`), and a stack exists iff the widths agree (induction on the tables) |
| C159 | `Model/Beam` over any run-time | the positions found are a sorted sublist of those asked about; sorting them again changes nothing, and the entries of each are the same; exact arithmetic by `C16`; counterexample by evaluating the double precision model in the kernel |
