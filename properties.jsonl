{"id": "C01", "title": "LoadCase accepts exactly the well-formed load tables", "statement": "LoadCase(loads=x) succeeds iff x is None, a single row of 7 numbers or a rectangular table of 7-number rows whose positions are non-decreasing and lie in [0,1]; the accepted rows are stored verbatim and in order. A wrong column count raises LoadCaseError and badly ordered or out-of-range positions raise AssertionError.", "quantifier": "every load table of every size, every entry value", "why_tests_cant": "tests try a handful of tables; the acceptance condition ranges over all table sizes and values", "anchors": ["beamdesign/loadcase.py: LoadCase.__init__, LoadCase._set_loads"]}
{"id": "C02", "title": "Explicit positions are sorted and de-duplicated, nothing added or lost", "statement": "LoadCase.list_positions(position=ps) returns a strictly ascending list holding exactly the values in ps (a single float is treated as a one element list), for any load case, loaded or not.", "quantifier": "every list of positions in any order with any duplicates", "why_tests_cant": "order and duplicates range over all permutations of all lists", "anchors": ["beamdesign/loadcase.py: LoadCase.list_positions"]}
{"id": "C03", "title": "min_positions covers every stored position and every equally spaced position", "statement": "For a loaded case LoadCase.list_positions(min_positions=n), n >= 1, returns a strictly ascending list within [0,1] whose members are exactly the stored load positions together with the n equally spaced positions between 0 and 1; it has at least n entries and the internal consistency assertion never fires.", "quantifier": "every load table and every n >= 1", "why_tests_cant": "needs all n and all tables; the assertion in the code is only evidence for the sampled runs", "anchors": ["beamdesign/loadcase.py: LoadCase.list_positions"]}
{"id": "C04", "title": "get_load is the sorted concatenation of one answer per position", "statement": "LoadCase.get_load(position=ps) returns, for the distinct requested positions in ascending order, all stored rows at that position verbatim in stored order when the position is stored, and exactly one interpolated row otherwise. The answer does not depend on how the library's unstable sort orders ties.", "quantifier": "every load table, every list of positions, every outcome of the unstable argsort", "why_tests_cant": "the result of an unstable sort is a free choice of the platform; tests see one platform and a few tables", "anchors": ["beamdesign/loadcase.py: LoadCase.get_load"]}
{"id": "C05", "title": "Row order: positions in get_load's answer never decrease and none is missing", "statement": "The position column of LoadCase.get_load's answer is non-decreasing, every requested position occurs in it and no other position does.", "quantifier": "every load table, every requested position list", "why_tests_cant": "range over all inputs", "anchors": ["beamdesign/loadcase.py: LoadCase.get_load"]}
{"id": "C06", "title": "Between two stored positions the load is the straight line between them", "statement": "At a position strictly between two neighbouring stored positions get_load returns the value of the straight line through those two rows; before the first stored position it returns the first row's value and after the last one the last row's value.", "quantifier": "every table (duplicates allowed), every position, every component", "why_tests_cant": "continuum of positions", "anchors": ["beamdesign/loadcase.py: LoadCase.get_load", "beamdesign/utility/interp.py: multi_interp"]}
{"id": "C07", "title": "Interpolation never overshoots", "statement": "Every load value returned by get_load lies between the smallest and the largest stored value of that component, so the extreme loads of a case occur at stored positions.", "quantifier": "every table, every position list, every component", "why_tests_cant": "continuum of positions and tables", "anchors": ["beamdesign/loadcase.py: LoadCase.get_load"]}
{"id": "C08", "title": "A constant load case is constant everywhere", "statement": "A case built by constant_load(VX..T) answers the given value of every component with exactly one row at every requested position. Values given as ints (as the defaults of constant_load_element are) give the same load case and the same element as floats.", "quantifier": "all component values, ints and floats, all positions", "why_tests_cant": "continuum of positions", "anchors": ["beamdesign/loadcase.py: LoadCase.constant_load, LoadCase.get_load", "beamdesign/element.py: Element.constant_load_element"]}
{"id": "C09", "title": "Selecting a component is a column projection", "statement": "get_load(component=c) equals get_load() with all columns but the position and c dropped, and naming the component by string, number or enum member is equivalent; on a loaded case an unknown string raises KeyError and an unknown number ValueError; a list of members selects these columns, a list with a name or a number in it raises AttributeError.", "quantifier": "every table, position list, component", "why_tests_cant": "range over all inputs", "anchors": ["beamdesign/loadcase.py: LoadCase.get_load", "beamdesign/const.py: LoadComponents"]}
{"id": "C10", "title": "Batching positions changes nothing", "statement": "Asking get_load for a list of positions gives the rows obtained by asking for each distinct position separately, in ascending order and stacked; re-ordering or repeating positions does not change the answer.", "quantifier": "every table, all permutations and repetitions of all position lists", "why_tests_cant": "all permutations", "anchors": ["beamdesign/loadcase.py: LoadCase.get_load"]}
{"id": "C11", "title": "Beam construction accepts exactly consistent element lists", "statement": "Beam(elements=x) succeeds iff x is one Element or a non-empty list of Elements which all list the same load case ids in the same order; the beam then holds exactly these elements. Otherwise ElementError (not elements / empty) or ElementCaseError (load cases differ).", "quantifier": "every list of elements", "why_tests_cant": "all lists", "anchors": ["beamdesign/beam.py: Beam.__init__, Beam._check_elements"]}
{"id": "C12", "title": "Elements tile the beam", "statement": "Beam.element_ends starts at 0.0, each element starts where the previous one ends, each ends no earlier than it starts, and the last one ends at Beam.length exactly; this holds for every rounding behaviour of floating point addition that rounds monotonically and leaves representable numbers alone, with a sum that adds one length after the other (Python up to 3.11; C117 for later versions).", "quantifier": "every number of elements and all lengths, every rounding mode", "why_tests_cant": "rounding and list length unbounded", "anchors": ["beamdesign/beam.py: Beam.element_ends, Beam.length"]}
{"id": "C13", "title": "in_elements finds exactly the elements containing a position", "statement": "Beam.in_elements(p) is empty iff p < 0 or p > length; otherwise it is a run of consecutive element numbers, exactly those whose closed interval contains p; two neighbouring elements in the run share p as their common end.", "quantifier": "every beam and position", "why_tests_cant": "continuum", "anchors": ["beamdesign/beam.py: Beam.in_elements"]}
{"id": "C14", "title": "Local and beam positions are inverse to each other", "statement": "For an element of non-zero length local_to_beam_position and beam_to_local_position are mutually inverse bijections between [0,1] and the element's interval; outside these ranges both raise PositionNotInElementError, and on a zero length element beam_to_local_position raises ElementLengthError.", "quantifier": "every beam, element number (negative python indices included) and position", "why_tests_cant": "continuum", "anchors": ["beamdesign/beam.py: Beam.beam_to_local_position, Beam.local_to_beam_position"]}
{"id": "C15", "title": "Beam.list_positions with explicit positions", "statement": "It raises PositionNotInBeamError iff some requested position is outside [0, length]; otherwise the answer lists, for the distinct positions in ascending order and for every element containing it in element order, the position, the element and a local position that maps back to the same beam position.", "quantifier": "every beam with positive or zero length elements, every list of positions", "why_tests_cant": "all inputs", "anchors": ["beamdesign/beam.py: Beam.list_positions"]}
{"id": "C16", "title": "Beam.list_positions with min_positions misses nothing", "statement": "For a loaded beam the positions listed contain every element end, every stored load position converted to the beam and the n equally spaced positions, in ascending order, all within [0,length]; if the beam has positive length at least n distinct positions are listed.", "quantifier": "every beam, every load case, every n >= 1", "why_tests_cant": "all inputs", "anchors": ["beamdesign/beam.py: Beam.list_positions"]}
{"id": "C17", "title": "Listing positions inside a beam never fails because of rounding", "statement": "If every requested position lies between 0 and Beam.length then Beam.list_positions succeeds, also when positions are computed in IEEE binary64.", "quantifier": "every beam, every in-range position, binary64 rounding", "why_tests_cant": "only special combinations of lengths hit the rounding case (0.1 and 0.2 do)", "anchors": ["beamdesign/beam.py: Beam.list_positions, Beam.beam_to_local_position"]}
{"id": "C18", "title": "Beam.get_loads stacks the element answers", "statement": "Beam.get_loads(position=ps, component=c) returns for each listed (position, element, local position) the element's own load rows at that local position, in order, with the position column replaced by the beam position.", "quantifier": "every beam, load case, position list, component", "why_tests_cant": "all inputs", "anchors": ["beamdesign/beam.py: Beam.get_loads"]}
{"id": "C19", "title": "A zero length element reports all of its loads including start and end", "statement": "At the position of a zero length element Beam.list_positions(load_case=c) lists the local positions 0.0, every stored load position and 1.0 of that element, so that every stored load row of the element appears in Beam.get_loads.", "quantifier": "every beam with a zero length element, every load table on it", "why_tests_cant": "depends on whether the table happens to start at 0 and end at 1", "anchors": ["beamdesign/beam.py: Beam.list_positions (lines 520-542)"]}
{"id": "C20", "title": "Reported positions are the true beam positions", "statement": "The position column of Beam.get_loads equals the beam position at which the load was asked for, whatever number types were used to enter the load table.", "quantifier": "every beam, integer or float load tables", "why_tests_cant": "only integer-typed tables on elements starting at fractional positions show the truncation", "anchors": ["beamdesign/beam.py: Beam.get_loads (line 387)", "beamdesign/loadcase.py: LoadCase.get_load"]}
{"id": "C21", "title": "Queries do not change the stored loads", "statement": "No sequence of get_load, get_loads, get_tension and tension_utilisation calls changes the loads stored in any load case, even though the library writes into the arrays these calls return; hence every query gives the same answer at any time.", "quantifier": "every history of queries", "why_tests_cant": "needs all histories; aliasing of numpy views is invisible until it bites", "anchors": ["beamdesign/loadcase.py: LoadCase.get_load", "beamdesign/beam.py: Beam.get_loads", "beamdesign/codecheck/codecheck.py: CodeCheck.get_tension"]}
{"id": "C22", "title": "Sections at a position", "statement": "Beam.get_section(position) returns the sections of exactly the elements containing each position, in element order, aligned with the positions; AS4100.get_as4100_section returns the design sections of the same elements.", "quantifier": "every beam and position list", "why_tests_cant": "all inputs", "anchors": ["beamdesign/beam.py: Beam.get_section", "beamdesign/codecheck/as4100/as4100.py: AS4100.get_as4100_section"]}
{"id": "C23", "title": "AS4100.get_section honours min_positions and load_case", "statement": "AS4100.get_section(min_positions=n, load_case=c) returns what Beam.get_section returns for the same arguments.", "quantifier": "every beam, n, load case", "why_tests_cant": "all inputs", "anchors": ["beamdesign/codecheck/as4100/as4100.py: AS4100.get_section"]}
{"id": "C24", "title": "Strength look-up picks the right thickness band", "statement": "For a thickness 0 <= t <= the largest tabulated thickness the look-up returns the yield (or ultimate) strength of the smallest tabulated thickness not below t; a negative or too large thickness raises InvalidThicknessError, a table that is not strictly ascending raises InvalidMaterialError, and the final 'unknown error' is unreachable.", "quantifier": "every thickness, every strength table", "why_tests_cant": "continuum of thicknesses, all tables", "anchors": ["beamdesign/codecheck/as4100/as4100_sect_props.py: AS4100Section._get_f"]}
{"id": "C25", "title": "Strength does not increase with thickness", "statement": "If the tabulated strengths do not increase with thickness then the looked-up strength is a non-increasing function of thickness, so using a thicker value is never unconservative.", "quantifier": "every such table, every pair of thicknesses", "why_tests_cant": "pairs of inputs", "anchors": ["beamdesign/codecheck/as4100/as4100_sect_props.py: AS4100Section._get_f"]}
{"id": "C26", "title": "Every shipped steel is usable over its whole thickness range", "statement": "Every steel of the shipped material table with strengths gives, for every thickness in [0, max], a yield and an ultimate strength with 0 < fy < fu, and its yield strength does not increase with thickness.", "quantifier": "every shipped steel and every thickness in a continuum", "why_tests_cant": "continuum of thicknesses", "anchors": ["beamdesign/materials/material.toml", "beamdesign/codecheck/as4100/as4100_sect_props.py: AS4100Section._get_f"]}
{"id": "C27", "title": "Loading materials", "statement": "Material.load_list gives the keys of the file in file order; load_material() has exactly these keys when every table is well formed; load_material(name=n) equals load_material()[n]; each material carries its type, name and standard and its properties are all the remaining entries. A missing type, name or standard raises KeyError, an unknown type ValueError.", "quantifier": "every parsed material file", "why_tests_cant": "all files", "anchors": ["beamdesign/materials/material.py: Material.load_material, Material.load_list, Material.__init__"]}
{"id": "C28", "title": "Design sections are only built for steel circles", "statement": "The as4100 section factory succeeds iff the section is a Circle whose material is steel; another material raises InvalidMaterialError and any other section type NotImplementedError, and so does building an AS4100 object on such a section or beam.", "quantifier": "every section, every beam", "why_tests_cant": "all inputs", "anchors": ["beamdesign/codecheck/as4100/as4100_sect_props.py: AS4100Section.__init__, AS4100_sect_factory", "beamdesign/codecheck/as4100/as4100.py: AS4100.__init__"]}
{"id": "C29", "title": "Tension capacity of the object is the governing section capacity", "statement": "Nt() is a lower bound of the as4100 S7.1 capacity of every section and is attained up to the pairing of yield and fracture: it equals the minimum over sections of min(yield, fracture). Nt(position=ps) is the same minimum over the elements at ps, so Nt() <= Nt(ps), and asking for a list gives the minimum over its members.", "quantifier": "every AS4100 object, every position list", "why_tests_cant": "all inputs", "anchors": ["beamdesign/codecheck/as4100/as4100.py: AS4100.Nt, Nty, Ntu, s7_1_Nt"]}
{"id": "C30", "title": "phi-factored capacities are phi times the capacity", "statement": "phiNt = phi*Nt, phiNty = phi*Nty and phiNtu = phi*Ntu for every object and position.", "quantifier": "every AS4100 object and position", "why_tests_cant": "all inputs; the tests never call phiNtu", "anchors": ["beamdesign/codecheck/as4100/as4100.py: AS4100.φNt, φNty, φNtu"]}
{"id": "C31", "title": "get_tension reports tension only", "statement": "get_tension returns the axial loads of get_loads with every negative value replaced by 0 and all other values and positions unchanged.", "quantifier": "every beam, load case, position list", "why_tests_cant": "all inputs", "anchors": ["beamdesign/codecheck/codecheck.py: CodeCheck.get_tension"]}
{"id": "C32", "title": "Utilisation is load over capacity", "statement": "For given positions and load cases tension_utilisation is the maximum over all load cases, positions and tension values t found there of t / phiNt(position) (0 for t <= 0); a ValueError is raised instead exactly when one of these tensions is positive but too small a fraction of its capacity for the solver.", "quantifier": "every AS4100 object with positive capacity, all positions and load cases, all loads", "why_tests_cant": "continuum of loads; iterative solver inside", "anchors": ["beamdesign/codecheck/as4100/as4100.py: AS4100.tension_utilisation", "beamdesign/utility/solvers.py: secant"]}
{"id": "C33", "title": "Overall utilisation considers the critical points of every load case", "statement": "tension_utilisation() (no position) is at least the utilisation at every assessment point of every load case, the assessment points being those of Beam.list_positions(min_positions=assessment_points, load_case=that case); it does not depend on the order of the load cases.", "quantifier": "every beam and every set of load cases", "why_tests_cant": "needs two load cases with different discontinuities", "anchors": ["beamdesign/codecheck/as4100/as4100.py: AS4100.tension_utilisation (lines 94-101)"]}
{"id": "C34", "title": "Utilisation does not fail on valid beams", "statement": "tension_utilisation() returns a value for every beam with steel sections of positive capacity and numeric loads, whatever number types the lengths have and however small the tension is.", "quantifier": "every valid beam", "why_tests_cant": "only integer lengths or tiny loads fail", "anchors": ["beamdesign/codecheck/as4100/as4100.py: AS4100.tension_utilisation", "beamdesign/utility/solvers.py: secant", "beamdesign/beam.py: Beam.list_positions"]}
{"id": "C35", "title": "Bisection stays in its bracket and respects its limits", "statement": "bisection never returns a point outside the initial bracket, never reports more iterations than max_its, raises ValueError exactly for the documented reasons, and once the first iteration has accepted the bracket the 'expected the guesses to bracket the root' error can no longer occur.", "quantifier": "every function, bracket, tolerance, iteration limit", "why_tests_cant": "all functions", "anchors": ["beamdesign/utility/solvers.py: bisection"]}
{"id": "C36", "title": "Bisection finds a root of every continuous function with a sign change", "statement": "If f is continuous on the bracket and the ends have opposite signs then bisection with enough iterations returns a point at which |f| <= tol or which is within half of max(tol, 1e-9 times the size of the bracket ends) of a root (math.isclose has a relative tolerance besides tol); the number of iterations needed is at most the base 2 logarithm of bracket / tolerance (rounded up).", "quantifier": "every continuous function, bracket, tolerance", "why_tests_cant": "all functions", "anchors": ["beamdesign/utility/solvers.py: bisection"]}
{"id": "C37", "title": "Bisection finds a root whenever one exists between the guesses", "statement": "As documented: if a root exists between the guesses, bisection finds one.", "quantifier": "every function and bracket", "why_tests_cant": "all functions", "anchors": ["beamdesign/utility/solvers.py: bisection docstring"]}
{"id": "C38", "title": "Secant terminates only on agreement and never reads an undefined value", "statement": "secant returns without fallback only when the last two iterates agree within tolerance, the loop body always runs at least once so the returned value is always defined, and the returned iteration count never exceeds max_its when max_its >= 1.", "quantifier": "every function and pair of guesses", "why_tests_cant": "all functions", "anchors": ["beamdesign/utility/solvers.py: secant"]}
{"id": "C39", "title": "Secant solves every linear equation exactly", "statement": "For f(x) = m x + c secant returns the exact root -c/m in at most two iterations, or the documented ValueError when the function values at the guesses are too close.", "quantifier": "every slope, intercept, pair of guesses", "why_tests_cant": "continuum", "anchors": ["beamdesign/utility/solvers.py: secant"]}
{"id": "C40", "title": "Secant falls back to bisection", "statement": "With fallback=True, when max_its is exhausted secant returns bisection's answer on the original bracket for the same function with the same extra arguments.", "quantifier": "every function, with or without extra arguments", "why_tests_cant": "all functions", "anchors": ["beamdesign/utility/solvers.py: secant (lines 244-248)"]}
{"id": "C41", "title": "Section 7 capacity and required area are inverse", "statement": "A member whose gross and net area are the required area 'phiA' for a tension N has design capacity 'phiN' exactly N, and any smaller common area has a smaller capacity; the required areas and capacities are monotone in load, area and strength.", "quantifier": "all positive loads, strengths, factors", "why_tests_cant": "continuum", "anchors": ["beamdesign/codecheck/as4100/S7.py: s7_1_A_reqd, s7_1_N_t"]}
{"id": "C42", "title": "The two section 7 implementations agree", "statement": "AS4100.s7_1_Nt(...) equals S7.s7_1_N_t(...)['N'] and the 'phi' entries of S7 are phi times the others, 'N' is the smaller of the two capacities.", "quantifier": "all inputs", "why_tests_cant": "continuum", "anchors": ["beamdesign/codecheck/as4100/as4100.py: AS4100.s7_1_Nt", "beamdesign/codecheck/as4100/S7.py: s7_1_N_t"]}
{"id": "C43", "title": "Formulas are unit independent", "statement": "As documented, the S5, S5 shear, S6 and S7 formulas are written in consistent units: scaling all lengths by s and all forces by f scales every capacity (moment, force, stress) by the matching power and leaves dimensionless factors unchanged.", "quantifier": "all inputs, all scale factors", "why_tests_cant": "continuum", "anchors": ["beamdesign/codecheck/as4100/S5.py", "beamdesign/codecheck/as4100/S5_Shear.py", "beamdesign/codecheck/as4100/S6.py", "beamdesign/codecheck/as4100/S7.py"]}
{"id": "C44", "title": "Slenderness factor for bending is bounded and decreasing", "statement": "For positive Ms and Mo, alpha_s lies strictly between 0 and 0.6*sqrt(3), decreases as Ms/Mo grows, and the member capacity alpha_m*alpha_s*Ms never exceeds alpha_m times 0.9*Mo.", "quantifier": "all positive moments", "why_tests_cant": "continuum", "anchors": ["beamdesign/codecheck/as4100/S5.py: s5_6_α_s, s5_6_1_Mb"]}
{"id": "C45", "title": "Moment modification factor", "statement": "alpha_m never exceeds alpha_m_max, is unchanged when all moments are scaled or change sign, is at least 1.7/sqrt(3) (or the cap) when M_max bounds the other moments, and raises ZeroDivisionError iff the three quarter point moments are all zero.", "quantifier": "all moments", "why_tests_cant": "continuum", "anchors": ["beamdesign/codecheck/as4100/S5.py: s5_6_1_α_m"]}
{"id": "C46", "title": "Twist restraint factor and effective length", "statement": "k_t is 1 for FF, FL, LL and FU, more than 1 for the partially restrained codes, the PP excess is twice the FP excess, and only the eight listed codes are accepted.", "quantifier": "all dimensions, all restraint codes", "why_tests_cant": "continuum", "anchors": ["beamdesign/codecheck/as4100/S5.py: s5_6_3_k_t"]}
{"id": "C47", "title": "Reference buckling moment", "statement": "M_o is positive, decreases with the effective length and grows with I_y, J and I_w for a symmetric section, and for beta_x = 0 equals the S5.6.1.1 formula sqrt(pi^2 E I_y/l^2 (GJ + pi^2 E I_w/l^2)).", "quantifier": "all positive section properties", "why_tests_cant": "continuum", "anchors": ["beamdesign/codecheck/as4100/S5.py: s5_6_1_M_o"]}
{"id": "C48", "title": "Shear buckling coefficient", "statement": "alpha_v is always in (0,1], equals 1 exactly up to the slenderness limit, and does not increase with web depth; alpha_vma is in (0,1] for positive stresses.", "quantifier": "all positive dimensions", "why_tests_cant": "continuum", "anchors": ["beamdesign/codecheck/as4100/S5_Shear.py: s5_11_5_α_v, s5_11_3_α_vma"]}
{"id": "C49", "title": "Weld shear capacity depends only on the total weld strength", "statement": "s5_11_4_V_w_Weld gives the same capacity for a list of welds as for the single float that is their sum, in any order.", "quantifier": "all lists of welds", "why_tests_cant": "all lists", "anchors": ["beamdesign/codecheck/as4100/S5_Shear.py: s5_11_4_V_w_Weld"]}
{"id": "C50", "title": "Compression member factor is a genuine reduction", "statement": "For every slenderness with non-zero modified slenderness lambda, alpha_c is real, 0 < alpha_c <= 1, and alpha_c <= (90/lambda)^2 (never above the elastic buckling load); it fails with ZeroDivisionError iff lambda = 0.", "quantifier": "all lambda_n >= 0, all alpha_b", "why_tests_cant": "continuum", "anchors": ["beamdesign/codecheck/as4100/S6.py: s6_3_3_α_c"]}
{"id": "C51", "title": "A longer column is never stronger", "statement": "s6_3_3_N_c does not increase when the effective length increases, for all alpha_b the standard allows (-1 to 1). (False for alpha_b = -1: among the values up to 1 it holds exactly for those from -796591/840000, about -0.948323, on.)", "quantifier": "all lengths, pairs of lengths", "why_tests_cant": "pairs of inputs in a continuum", "anchors": ["beamdesign/codecheck/as4100/S6.py: s6_3_3_N_c, s6_3_3_α_c"]}
{"id": "C52", "title": "Flexural-torsional buckling stress", "statement": "f_oxz is real, positive and not larger than the flexural and the torsional buckling stress; with the shear centre at the centroid it is the smaller of the two.", "quantifier": "all positive section properties", "why_tests_cant": "continuum", "anchors": ["beamdesign/codecheck/as4100/S6.py: f_oxz, f_oc_double_symmetric"]}
{"id": "C53", "title": "Torsional capacity", "statement": "The AS4600 column curve stress f_n is positive, below f_y, never above 0.877 f_oc beyond slenderness 1.5, and does not increase as f_oc falls, also across the switch between the two curves.", "quantifier": "all positive stresses", "why_tests_cant": "continuum; the switch point", "anchors": ["beamdesign/codecheck/as4100/S6.py: s6_3_3_N_c_torsion"]}
{"id": "C54", "title": "Compression capacity is the minimum of all checks", "statement": "s6_1_1_Nc returns N_c = min of N_s and the computed N_cx, N_cy, N_cz, never above N_s, phiN_c = phi*N_c, and switching checks off never lowers the result.", "quantifier": "all inputs with phi >= 0", "why_tests_cant": "continuum", "anchors": ["beamdesign/codecheck/as4100/S6.py: s6_1_1_Nc"]}
{"id": "C55", "title": "Caching is invisible in the capacities", "statement": "The buckling stresses and capacities (f_oxz, f_oc, N_cz, N_c) returned by S6 functions do not depend on earlier calls, whatever has been cached or evicted.", "quantifier": "every history of calls", "why_tests_cant": "needs all histories including evictions", "anchors": ["beamdesign/codecheck/as4100/S6.py: f_oxz, r_ol, f_euler_torsion (lru_cache)"]}
{"id": "C56", "title": "Returned result dictionaries are not changed later", "statement": "The intermediate results returned by an S6 call stay as returned and describe that call only, whatever is called afterwards.", "quantifier": "every history of calls", "why_tests_cant": "needs two calls that share a cache entry", "anchors": ["beamdesign/codecheck/as4100/S6.py: f_oc_double_symmetric, f_oc_single_symmetric, s6_3_3_N_c_torsion, s6_1_1_Nc"]}
{"id": "C57", "title": "Symmetry classification and dispatch", "statement": "Every axes list is classified as exactly one of Double, Single, Point, None by the documented rule, independent of order, and the torsional check uses the matching clause; a symmetry object without axes is treated as unsymmetric. A string of axes is classified as the list of its letters.", "quantifier": "every axes list and every string", "why_tests_cant": "all lists", "anchors": ["beamdesign/utility/symmetry.py: Symmetry", "beamdesign/codecheck/as4100/S6.py: s6_3_3_N_c_torsion"]}
{"id": "C58", "title": "Unsymmetric buckling agrees with the symmetric special cases", "statement": "f_oc_unsymmetric returns the smallest of f_ox, f_oy, f_oz when the shear centre is the centroid, and for a section with y_o = 0 the smaller of f_oy and f_oxz, given an exact root finder.", "quantifier": "all positive section properties", "why_tests_cant": "continuum", "anchors": ["beamdesign/codecheck/as4100/S6.py: f_oc_unsymmetric"]}
{"id": "C59", "title": "Effective areas for local buckling", "statement": "The effective width, diameter and area never exceed the gross ones and equal them for stocky plates; s6_2_A_e_CHS returns the effective area of a tube.", "quantifier": "all positive dimensions", "why_tests_cant": "continuum", "anchors": ["beamdesign/codecheck/as4100/as4100_sect_props.py: s6_2_b_e_flatplate, s6_2_d_e_CHS, s6_2_A_e_flatplate, s6_2_A_e_CHS", "beamdesign/sections/hollowcircle.py"]}
{"id": "C60", "title": "Design sections stay aligned with the beam", "statement": "as4100_sections[n] is the wrapper of sections[n] at all times, so capacities always refer to the current sections.", "quantifier": "every history of attribute changes", "why_tests_cant": "needs histories", "anchors": ["beamdesign/codecheck/as4100/as4100.py: AS4100.__init__, as4100_sections, sections"]}
{"id": "C61", "title": "An unloaded case answers None", "statement": "For a case without loads get_load returns one [position, None] row per distinct requested position in ascending order, with as many columns as the same request on a loaded case.", "quantifier": "every position list and component", "why_tests_cant": "all lists", "anchors": ["beamdesign/loadcase.py: LoadCase.get_load (lines 447-452)"]}
{"id": "C62", "title": "Utilisation scales with the loads", "statement": "Multiplying all axial loads of all load cases by a factor k > 0 multiplies the utilisation at given positions and load cases by k. If the factor is at least 1 the check of the scaled loads gives a value whenever that of the original loads does.", "quantifier": "every object, every k", "why_tests_cant": "continuum", "anchors": ["beamdesign/codecheck/as4100/as4100.py: AS4100.tension_utilisation"]}
{"id": "C63", "title": "Bisection's tolerance is absolute", "statement": "As documented ('this is an absolute, not a relative, tolerance'): a returned point is within tol of a root, or |f| <= tol there, however large the bracket ends are.", "quantifier": "every continuous function with a sign change, bracket and tolerance", "why_tests_cant": "tests use brackets around small numbers; the relative test of math.isclose only matters for large ones", "anchors": ["beamdesign/utility/solvers.py: bisection"]}
{"id": "C64", "title": "Batch lookup agrees with the single position helper", "statement": "get_load at one position in [0, 1] returns exactly the rows (or the error) that the single position helper _get_load_single_position returns, and a batch of positions returns the helper's rows for each distinct position in ascending order. Outside [0, 1] the helper raises AssertionError although get_load answers. For an unloaded case and all components the helper returns six None columns.", "quantifier": "every load case that can be constructed, every position, every component argument", "why_tests_cant": "the two paths are separate code: tests compare them at a few positions of a few tables", "anchors": ["beamdesign/loadcase.py: LoadCase.get_load", "beamdesign/loadcase.py: LoadCase._get_load_single_position", "beamdesign/loadcase.py: LoadCase._get_load_single_component"]}
{"id": "C65", "title": "Load combinations superpose", "statement": "If the table of a load case is a*T1 + k*T2 row by row (same positions), then the answers of get_load and of Beam.get_loads for it are the same combination, row by row, of the answers for T1 and T2; in particular all three answer at the same positions or all fail in the same way.", "quantifier": "every pair of load tables on the same positions, every pair of factors, every beam whose elements carry the three cases, every position argument and component selection", "why_tests_cant": "superposition ranges over all tables and factors and every path through interpolation, jumps and element boundaries", "anchors": ["beamdesign/loadcase.py: LoadCase.get_load", "beamdesign/beam.py: Beam.get_loads", "beamdesign/element.py: Element.get_loads"]}
{"id": "C66", "title": "Member moment capacity is limited by the section moment capacity", "statement": "As in AS4100 S5.6.1.1 the member moment capacity from s5_6_1_Mb, with the slenderness factor of s5_6_α_s, never exceeds the section moment capacity M_s.", "quantifier": "all positive section capacities, reference buckling moments and moment modification factors", "why_tests_cant": "tests use the tabulated cases where the limit does not govern", "anchors": ["beamdesign/codecheck/as4100/S5.py: s5_6_1_Mb, s5_6_α_s"]}
{"id": "C67", "title": "Shear capacity formulas agree with each other", "statement": "The interface shear capacity equals the weld capacity for a weld whose strength is the shear yield capacity of the interface per metre; the CHS capacity is the generic capacity of 0.6 times the area; capacities of parts of a web and of groups of welds add.", "quantifier": "all dimensions, strengths and factors; Q zero or not", "why_tests_cant": "each formula is tested against its own hand calculation at a few points only", "anchors": ["beamdesign/codecheck/as4100/S5_Shear.py: s5_11_4_V_w_Generic, s5_11_4_V_w_CHS, s5_11_4_V_w_Weld, s5_11_4_V_w_Interface"]}
{"id": "C68", "title": "Equal materials are interchangeable", "statement": "Two Material objects are equal exactly when type, name, standard and the value of every property agree, whatever the order of the properties; equality is an equivalence; tables whose entries are in another order load as equal materials or fail with the same exception; and replacing materials by equal ones in a beam or section changes no answer of an AS4100 check (capacities, loads, tension, utilisation, exceptions).", "quantifier": "all materials whose values are strings, numbers and tables of numbers; all beams, sections, load cases and positions", "why_tests_cant": "ranges over all pairs of dictionaries and all queries", "anchors": ["beamdesign/materials/material.py: Material.__eq__, Material.load_material", "beamdesign/codecheck/as4100/as4100.py: AS4100"]}
{"id": "C69", "title": "The default AS4100 checker uses exactly the configured values", "statement": "Building a default AS4100 checker takes φ_steel, αu and kt from the 'defaults' table of the configuration file and nothing else: the order of the keys and the other tables do not matter, a missing 'defaults' table is a KeyError, and a missing or unknown parameter in it is a TypeError. The shipped file gives 0.9, 0.85 and 1.", "quantifier": "every parsed configuration (any tables, any keys, any order), every beam and every section", "why_tests_cant": "Tests only ever see the one shipped configuration file; the claim ranges over every configuration a user may write.", "anchors": ["beamdesign/codecheck/as4100/as4100.py: AS4100.default_AS4100, AS4100.get_defaults", "beamdesign/codecheck/as4100/as4100.toml"]}
{"id": "C70", "title": "A beam inside a longer beam answers as it does alone", "statement": "Putting elements before and after a beam changes nothing about it: for positions not at a joint with a neighbour, listed places, sections, loads (of tables of floats), tension capacities and tension utilisation for given load cases are those of the beam alone, with positions moved by the length put before it and elements counted from there; the exceptions are the same too.", "quantifier": "all beams, all elements put before and after, all lists of positions, load cases and components", "why_tests_cant": "ranges over all assemblies of elements and all positions", "anchors": ["beamdesign/beam.py: Beam.list_positions, Beam.get_section, Beam.get_loads", "beamdesign/codecheck/as4100/as4100.py: AS4100.Nty, AS4100.Ntu, AS4100.Nt, AS4100.tension_capacity, AS4100.tension_utilisation"]}
{"id": "C71", "title": "The overall utilisation misses no peak between the points assessed", "statement": "Asked for a load case (or for several, of which it is the first), the tension utilisation without positions is at least the utilisation of that load case at every list of positions along the beam, also at positions between the points the check looks at.", "quantifier": "all beams with float element lengths, all tables of floats, all numbers of assessment points, all positions from 0 to the total length", "why_tests_cant": "ranges over all positions of a continuum and all load tables; a test sees finitely many positions", "anchors": ["beamdesign/codecheck/as4100/as4100.py: AS4100.tension_utilisation", "beamdesign/beam.py: Beam.list_positions, Beam.get_loads"]}
{"id": "C72", "title": "With one capacity the overall utilisation is that of the largest stored tension", "statement": "If all sections of the beam have the same tension capacity, the tension utilisation without positions for one load case is the greatest stored axial tension of that load case over the design capacity, and 0 if there is no tension. Element lengths and the number of assessment points do not matter.", "quantifier": "all beams with positive float element lengths, all tables of floats, all numbers of assessment points", "why_tests_cant": "ranges over all load tables, lengths and numbers of points", "anchors": ["beamdesign/codecheck/as4100/as4100.py: AS4100.tension_utilisation", "beamdesign/beam.py: Beam.list_positions, Beam.get_loads"]}
{"id": "C73", "title": "More tension or less capacity never lowers the utilisation", "statement": "Take two designs of the same element lengths, load cases and load positions. If nowhere in the second is a stored axial load smaller and no section of the second has a larger design tension capacity than its counterpart, the second has no smaller tension utilisation, at given positions and overall.", "quantifier": "all pairs of beams and sections so related, all load cases, all positions, any number of assessment points (equal in both)", "why_tests_cant": "compares all pairs of designs; between stored rows it needs monotone interpolation", "anchors": ["beamdesign/codecheck/as4100/as4100.py: AS4100.tension_utilisation, AS4100.φNt", "beamdesign/loadcase.py: LoadCase.get_load"]}
{"id": "C74", "title": "A thicker rod is never weaker", "statement": "Replacing the rods of a design by thicker ones of the same material does not lower the tension capacity.", "quantifier": "all radii, all strength tables", "why_tests_cant": "ranges over all pairs of radii and all tables; the failures sit at the edges of the bands", "anchors": ["beamdesign/codecheck/as4100/as4100.py: AS4100.tension_capacity, AS4100.Nty, AS4100.Ntu", "beamdesign/codecheck/as4100/as4100_sect_props.py: AS4100Section._get_f", "beamdesign/sections/circle.py"]}
{"id": "C75", "title": "A stored point on the curve is redundant", "statement": "Take a table of float loads and a further row that lies strictly between two neighbouring stored positions (or beyond the first or last), with every component on the piecewise linear curve of the table. Storing the row or leaving it out makes no difference to the answers at explicit positions, for every choice of components: neither of the load case nor of a beam (of positive element lengths) using it.", "quantifier": "all well formed tables and redundant rows, all beams around the element, all positions, all component arguments", "why_tests_cant": "a statement about all pairs of tables describing the same curve", "anchors": ["beamdesign/loadcase.py: LoadCase.get_load", "beamdesign/beam.py: Beam.get_loads"]}
{"id": "C76", "title": "Cutting an element does not change the loads of a beam", "statement": "An element of a beam may be replaced by two shorter ones that carry the same loads on either side of the cut. The beam then reports the same loads at every explicit position except possibly the cut itself; at the cut too, when the table has exactly two rows there (a step). The cut may be at a stored position or anywhere on the curve.", "quantifier": "all beams of positive element lengths, all elements of it, all cut positions, all tables of floats, all requested positions and components", "why_tests_cant": "compares all pairs of descriptions of the same beam", "anchors": ["beamdesign/beam.py: Beam.get_loads, Beam.list_positions, Beam.in_elements", "beamdesign/loadcase.py: LoadCase.get_load"]}
{"id": "C77", "title": "A beam may be described from either end", "statement": "Describing a beam from its other end (elements in the opposite order, each load table turned round) gives the mirrored loads: what was reported at x is reported at L - x, with everything in the opposite order.", "quantifier": "all beams of positive element lengths, all tables of floats, all requested positions and components", "why_tests_cant": "compares all beams with their mirror images", "anchors": ["beamdesign/beam.py: Beam.get_loads, Beam.list_positions, Beam.in_elements, Beam.beam_to_local", "beamdesign/loadcase.py: LoadCase.get_load"]}
{"id": "C78", "title": "Interpolated loads are accurate in floating point", "statement": "With rounded arithmetic, a stored load row is returned bit for bit, and an interpolated value differs from the exact piecewise-linear value by at most a few units in the last place relative to the largest magnitude in the table: at most 2^-49 times it (plus an underflow term of 2^-1073) in IEEE double precision.", "quantifier": "all load tables and positions of machine numbers, all requested components, every arithmetic meeting the standard model of rounding, and binary64 in particular", "why_tests_cant": "an error bound over every table of doubles cannot be enumerated; a test compares a few values with a tolerance", "anchors": ["beamdesign/loadcase.py: LoadCase.get_load, LoadCase._get_load_single_component (numpy.interp)"]}
{"id": "C79", "title": "Load case numbers are only labels", "statement": "Renumbering the load cases of every element of a beam by the same one-to-one renumbering changes nothing but the numbers: the beam is accepted or rejected as before, and positions, sections, loads, tension and utilisation asked for under the new numbers are those of the old ones, errors included.", "quantifier": "all beams, all injective renumberings of the load cases, all arguments of the queries", "why_tests_cant": "compares every beam with every renumbering of it", "anchors": ["beamdesign/beam.py: Beam.__init__, Beam.list_positions, Beam.get_loads, Beam.get_section", "beamdesign/element.py: Element.get_loads", "beamdesign/codecheck/as4100/as4100.py: AS4100.get_tension, AS4100.tension_utilisation"]}
{"id": "C80", "title": "Load cases are independent", "statement": "What is reported for a load case depends only on that load case: adding, removing or changing other load cases does not change its positions, sections, loads or tension, nor a utilisation asked for load cases that are unchanged.", "quantifier": "all pairs of beams with the same lengths and sections that agree in the load cases asked for, all query arguments", "why_tests_cant": "relates all pairs of beams; a leak between load cases shows only for particular combinations", "anchors": ["beamdesign/beam.py: Beam.list_positions, Beam.get_loads, Beam.get_section", "beamdesign/codecheck/as4100/as4100.py: AS4100.get_tension, AS4100.tension_utilisation"]}
{"id": "C81", "title": "A design that passes is nowhere overloaded", "statement": "If the overall tension utilisation of a beam in a load case is at most 1, then at every point along every element the axial load is at most the design capacity of that element's section; more generally it is at most the reported utilisation times that capacity. With several load cases this holds for the first one and for all whose stations are stations of the first. When all sections have the same capacity the converse holds too.", "quantifier": "all beams of steel circles with positive float lengths, all load tables, every real position along every element", "why_tests_cant": "ranges over the continuum of positions between the assessed points and over all beams and load tables", "anchors": ["beamdesign/codecheck/as4100/as4100.py: AS4100.tension_utilisation, AS4100.tension_capacity", "beamdesign/beam.py: Beam.list_positions, Beam.get_loads"]}
{"id": "C82", "title": "Utilisations are accurate in floating point", "statement": "Computed in IEEE double precision, tension_utilisation at given positions and load cases does not fail and differs from the largest ratio of reported tension to reported capacity (0 where there is no tension) by a relative error below 2^-48, whenever every positive tension there is a normal double between a ten-thousandth of and ten thousand times the capacity. More generally, for any arithmetic whose operations have relative error at most u (u at most 5e-16), the relative error of the utilisation is at most 27 u: the secant iteration stops after two steps and does not amplify rounding errors although its first step cancels guesses of +-100000.", "quantifier": "every AS4100 object, selection of load cases and positions, capacities and tensions in the stated range, and every arithmetic meeting the standard model of floating point", "why_tests_cant": "rounding errors depend on every bit of the inputs; a test samples a few of the 2^128 pairs of tension and capacity", "anchors": ["beamdesign/codecheck/as4100/as4100.py: tension_utilisation", "beamdesign/utility/solvers.py: secant"]}
{"id": "C83", "title": "Loads reported on a beam are accurate in floating point", "statement": "On a beam whose element lengths and element ends are floating point numbers, Beam.get_loads does not fail for positions on the beam, and reports, for every listed position and element, the stored rows of the element exactly or a value within 2^-49 (relative to the largest load of the component in the table) of the exact piecewise linear curve at the local position, which is the beam position minus the start of the element over its length, each operation correctly rounded.", "quantifier": "every beam with such lengths, every load case of doubles, every component, every requested position and every min_positions, every monotone rounding meeting the standard model, in particular binary64", "why_tests_cant": "all doubles", "anchors": ["beamdesign/beam.py: Beam.get_loads, Beam.list_positions, Beam.beam_to_local_position", "beamdesign/loadcase.py: LoadCase._get_input_loads"]}
{"id": "C84", "title": "Stored loads are not lost to rounding", "statement": "Every load stored on an element of a beam is among the loads reported along the beam (get_loads with min_positions, and so the overall utilisation), also in binary64.", "quantifier": "every beam, every stored load", "why_tests_cant": "only special stored positions and lengths are lost (0.1 of a length of 3.0 is)", "anchors": ["beamdesign/beam.py: Beam.get_loads, Beam.list_positions", "beamdesign/codecheck/as4100/as4100.py: AS4100.tension_utilisation"]}
{"id": "C85", "title": "Tension capacity is accurate in floating point", "statement": "In binary64 (and under any rounding with relative error u), on a beam whose element ends are machine numbers, φNt at given positions (and φNt for all sections) is the least of phi times the S7.1 capacity of the sections there, computed in real arithmetic with the true pi, with a relative error of at most 2^-50 (6.2 u against the formula with the double for pi). No section is confused with its neighbour.", "quantifier": "every object for a beam of solid circles whose radii, strengths and factors are doubles not below 2^-100, every scalar or list of positions on the beam", "why_tests_cant": "the bound has to hold for all doubles; a test compares a few values with a tolerance", "anchors": ["beamdesign/codecheck/as4100/as4100.py: AS4100.φNt, AS4100.Nt, AS4100.Nty, AS4100.Ntu", "beamdesign/codecheck/as4100/as4100.py: AS4100.s7_1_Nt, AS4100.s7_2_Nty, AS4100.s7_2_Ntu", "beamdesign/sections/circle.py: Circle.area"]}
{"id": "C86", "title": "A beam passing the check in double precision is nowhere overloaded", "statement": "If the overall tension utilisation computed in binary64 is at most 1, then at every point of every element the true axial load (the piecewise linear curve, in real arithmetic) is at most 1 + 2^-47 times the true design capacity of that element (with the true pi). More generally it is at most (1 + 2^-47) times the larger of the utilisation and 1/10000 times the capacity. This holds for the first load case and for every load case whose stations are stations of the first one, when loads are stored on the grid of doubles (C84 shows that it fails otherwise).", "quantifier": "every beam of solid circles whose element ends are doubles, all data that are doubles not below 2^-100, every set of loads stored on the grid of doubles and not above 5000 times the capacity, every number of assessment points", "why_tests_cant": "the claim is about all points of the beam and all doubles; a test checks some", "anchors": ["beamdesign/codecheck/as4100/as4100.py: AS4100.tension_utilisation, AS4100.φNt, AS4100.get_tension", "beamdesign/beam.py: Beam.list_positions, Beam.get_loads", "beamdesign/utility/solvers.py: secant"]}
{"id": "C87", "title": "One yield stress serves all formulas with their default arguments", "statement": "With the default reference stress, the S5 and S6 formulas measure the yield stress of the library's own materials (pascals) against the 250 MPa of AS4100: a stocky plate of a shipped steel is fully effective (s6_2_A_e_flatplate), and the slendernesses of plates, tubes, webs and members are those of the standard.", "quantifier": "every plate, tube, web and member, every yield stress, in particular every yield stress of the shipped materials", "why_tests_cant": "tests call each function with the unit its own docstring names; the claim is about using them together for every section and steel", "anchors": ["beamdesign/codecheck/as4100/as4100_sect_props.py: s6_2_λ_e_flatplate, s6_2_λ_e_CHS, s6_2_A_e_flatplate", "beamdesign/codecheck/as4100/S5_Shear.py: s5_11_5_α_v", "beamdesign/codecheck/as4100/S6.py: s6_3_3_λ_n", "beamdesign/materials/material.toml"]}
{"id": "C88", "title": "A longer segment is never stronger in bending", "statement": "The member moment capacity got by chaining s5_6_3_k_t, s5_6_3_l_e, s5_6_1_M_o, s5_2_M_s, s5_6_α_s and s5_6_1_Mb is positive; it falls when the segment is longer (although the twist restraint factor falls too), when a load height or rotation restraint factor grows and when an end is only partially restrained against twist, and grows with the yield stress, the section modulus and the section constants.", "quantifier": "all segments with positive data, any monosymmetry constant, all restraint codes", "why_tests_cant": "a monotonicity claim about a composition of six formulas over all real data", "anchors": ["beamdesign/codecheck/as4100/S5.py: s5_6_3_k_t, s5_6_3_l_e, s5_6_1_M_o, s5_2_M_s, s5_6_α_s, s5_6_1_Mb"]}
{"id": "C89", "title": "multi_interp interpolates every row", "statement": "multi_interp gives, for every point and every row of values, the value of the piecewise linear curve of that row (the fill value or the end value outside the data, the last value at repeated data points), in the documented shape; no points, no data and rows of the wrong length raise ValueError, and so do unsorted data points.", "quantifier": "all points (number, list, array), all data and fill values, all numbers of rows", "why_tests_cant": "needs all data, all points and repeated data points; the promised error for unsorted data must appear for every unsorted list", "anchors": ["beamdesign/utility/interp.py: multi_interp"]}
{"id": "C90", "title": "Accepted objects stay valid", "statement": "Once LoadCase, Element and Beam have accepted their arguments, the objects stay valid whatever the program does afterwards: the positions of a load case stay ascending and within 0 and 1, the length of an element stays non-negative, and a beam keeps at least one element and the same load cases on all of them. In particular later writes into the array a load case was made of do not change the load case.", "quantifier": "all histories of creating arrays, load cases, dicts, elements, lists and beams, of constructor calls that raise, and of writes into arrays, dicts, lists and lengths, through any of the references the API hands out", "why_tests_cant": "the objects share arrays, dicts and lists with the caller and with each other; a test follows one history, while the claim is an invariant over all of them", "anchors": ["beamdesign/loadcase.py: LoadCase.__init__, LoadCase._set_loads, LoadCase.loads", "beamdesign/element.py: Element.__init__, Element.loads", "beamdesign/beam.py: Beam.__init__, Beam.elements"]}
{"id": "C91", "title": "The number of assessment points does not change the overall utilisation", "statement": "tension_utilisation() without positions gives the same answer whatever number of assessment points is set: the points that matter, stored load positions and element ends, are always assessed.", "quantifier": "all beams of steel rods of float lengths, all tables of loads, load case arguments and pairs of numbers of assessment points", "why_tests_cant": "a test compares a few numbers of points on a few beams; the claim is about every load curve and every number", "anchors": ["beamdesign/codecheck/as4100/as4100.py: AS4100.tension_utilisation", "beamdesign/codecheck/codecheck.py: CodeCheck.assessment_points", "beamdesign/beam.py: Beam.list_positions"]}
{"id": "C92", "title": "A member with the required area carries the load in floating point", "statement": "In double precision, s7_1_N_t for gross and net areas equal to s7_1_A_reqd(N)['φA'] gives a design capacity 'φN' of at least N.", "quantifier": "all forces, strengths and factors that are doubles between 2^-100 and 2^100", "why_tests_cant": "each of the eight roundings depends on all bits of the inputs; tests compare a few values with isclose", "anchors": ["beamdesign/codecheck/as4100/S7.py: s7_1_A_reqd, s7_1_N_t, s7_2_Ag, s7_2_An, s7_2_N_t_yield, s7_2_N_t_ultimate"]}
{"id": "C93", "title": "Stronger steel never weakens a column", "statement": "With the geometry, the reference stress and alpha_b unchanged, s6_3_3_N_c does not fall when the yield stress, the form factor or the net area is increased, for every alpha_b from -1 to 1.", "quantifier": "all lengths, radii, pairs of yield stresses, form factors and areas, all alpha_b in [-1, 1]", "why_tests_cant": "a higher yield stress raises the squash load but also the slenderness, so the sign of the net effect must be settled over a continuum (the margin at alpha_b = -1 is under 0.3 %)", "anchors": ["beamdesign/codecheck/as4100/S6.py: s6_3_3_N_c, s6_3_3_α_c, s6_3_3_λ_n, s6_2_N_s"]}
{"id": "C94", "title": "Pin connection areas carry the safety factor times the load", "statement": "With A_reqd from s7_1_A_reqd, the areas of s7_5_b_A_beyond and s7_5_c_A_perp have a design capacity (s7_1_N_t) of exactly the safety factor times the load, the factor being the argument or its documented default (1.00, 1.33); s7_5_a_min_thickness returns the edge distance times the factor, by default 0.25; required net area and ultimate capacity are inverse with the same uncertainty factor, given or left out.", "quantifier": "all loads, strengths and factors, every choice of arguments left out", "why_tests_cant": "relates five functions over a continuum of inputs and all combinations of defaults", "anchors": ["beamdesign/codecheck/as4100/S7.py: s7_5_a_min_thickness, s7_5_b_A_beyond, s7_5_c_A_perp, s7_1_A_reqd, s7_1_N_t, s7_2_An, s7_2_N_t_ultimate"]}
{"id": "C95", "title": "A rod sized with section 7 passes the check", "statement": "For a steel rod, default_AS4100(section=...) with the shipped factors and S7.s7_1_N_t with its default factors report the same capacities; tension_capacity is at least N exactly when the rod has the area s7_1_A_reqd asks for.", "quantifier": "all radii, materials with strengths, loads", "why_tests_cant": "two implementations and two sets of defaults (a TOML file and keyword defaults) must agree for every rod and load", "anchors": ["beamdesign/codecheck/as4100/as4100.py: default_AS4100, tension_capacity", "beamdesign/codecheck/as4100/as4100.toml", "beamdesign/codecheck/as4100/S7.py: s7_1_N_t, s7_1_A_reqd"]}
{"id": "C96", "title": "A stronger, thicker or deeper web is never weaker in shear", "statement": "The shear capacity of an unstiffened web, computed as the shear buckling coefficient times the generic shear yield capacity of depth times thickness, never falls when the yield stress, the thickness or the depth of the web is increased. For a given thickness and steel no depth gives more than ratio * limit * t_w^2 * sqrt(f_y f_ref), which is reached at the slenderness limit.", "quantifier": "all positive web depths, thicknesses, yield stresses, slenderness limits, reference stresses and shear yield ratios", "why_tests_cant": "The coefficient falls as the web gets stronger, so the claim is about the product of a falling and a rising quantity on both sides of a branch; a test compares single numbers.", "anchors": ["beamdesign/codecheck/as4100/S5_Shear.py: s5_11_5_α_v, s5_11_4_V_w_Generic"]}
{"id": "C97", "title": "A materials file loads as exactly what is written in it", "statement": "A materials file in the layout documented in material.toml (tables with entries, bare or quoted keys, strings, decimal numbers, arrays of rows over several lines, comments and blank lines anywhere, any indentation, Unix or Windows line ends) loads as exactly the materials written in it, in that order, with exactly those numbers; load_list gives their names and load_material(name=..) each of them. A table or key given twice raises ValueError. Every list of printable keys, strings and decimal numbers can be written down in this layout.", "quantifier": "all texts of the grammar, of any length, all file systems and all conversions of decimals to program numbers", "why_tests_cant": "The tests load the shipped file only; the claim is about every file a user can write, with every placement of comments, blanks and line ends.", "anchors": ["beamdesign/materials/material.py: Material.load_material, load_list, _load_helper", "beamdesign/materials/material.toml"]}
{"id": "C98", "title": "A file loads the same on every platform", "statement": "What the loaders return depends only on the bytes of the file asked for (without a path, of the one in the package), not on other files and not on the platform's text encoding. If the file is missing they raise FileNotFoundError.", "quantifier": "all file systems, paths, file contents and platform encodings", "why_tests_cant": "Tests run on one machine with one encoding.", "anchors": ["beamdesign/materials/material.py: Material._load_helper", "beamdesign/codecheck/as4100/as4100.py: AS4100.get_defaults, default_AS4100"]}
{"id": "C99", "title": "The shipped tables are the ones in the package", "statement": "On every platform whose encoding reads ASCII, with Unix or Windows line ends, load_material() gives the materials in material.toml and get_defaults() the factors in as4100.toml; default_AS4100 without a path has the factors 0.9, 0.85 and 1.", "quantifier": "all platform encodings that read ASCII, all installation paths, all other files, all conversions of decimals to program numbers", "why_tests_cant": "The tests check two materials on one machine.", "anchors": ["beamdesign/materials/material.toml", "beamdesign/codecheck/as4100/as4100.toml", "beamdesign/materials/material.py: Material._load_helper", "beamdesign/codecheck/as4100/as4100.py: AS4100.get_defaults"]}
{"id": "C100", "title": "A bigger or stronger plate never carries less in compression, alone or as a column", "statement": "With the effective area from s6_2_A_e_flatplate, a plate that is at least as wide, as thick and as strong never has a smaller squash load s6_2_N_s; at equal strength its effective area is not smaller, and at equal dimensions a stronger steel never gives a larger effective area. Beyond the limiting slenderness more width adds nothing and double the thickness gives four times the area. A column whose form factor s6_2_k_f_Form_Factor comes from that area never gets a lower s6_3_3_N_c in a stronger steel, although its form factor may fall.", "quantifier": "all positive widths, thicknesses, yield stresses, yield limits and reference stresses, all column lengths and radii of gyration, all section constants from -1 to 1", "why_tests_cant": "A monotonicity claim over several real parameters at once, across the boundary between stocky and slender plates and through two functions with opposite trends.", "anchors": ["beamdesign/codecheck/as4100/as4100_sect_props.py:s6_2_A_e_flatplate", "beamdesign/codecheck/as4100/as4100_sect_props.py:s6_2_k_f_Form_Factor", "beamdesign/codecheck/as4100/S6.py:s6_2_N_s", "beamdesign/codecheck/as4100/S6.py:s6_3_3_N_c"]}
{"id": "C101", "title": "A bigger or stronger tube never has less effective section", "statement": "With the slenderness from s6_2_λ_e_CHS and the effective diameter from s6_2_d_e_CHS, a tube that is at least as wide, as thick and as strong never has a smaller product of effective diameter and yield stress. At equal diameter and strength a thicker tube never has a smaller effective diameter; in otherwise equal tubes a stronger steel never gives a larger one.", "quantifier": "all positive diameters, wall thicknesses, yield stresses, yield limits and reference stresses", "why_tests_cant": "The rule has three branches with different trends; it holds up to a slenderness no fixed test would pick and fails beyond it.", "anchors": ["beamdesign/codecheck/as4100/as4100_sect_props.py:s6_2_λ_e_CHS", "beamdesign/codecheck/as4100/as4100_sect_props.py:s6_2_d_e_CHS"]}
{"id": "C102", "title": "Rounding does not spoil the bending capacity", "statement": "The member bending capacity a caller gets by chaining s5_6_3_k_t, s5_6_3_l_e, s5_6_1_M_o, s5_6_α_s, s5_2_M_s and s5_6_1_Mb in floating point is close to the value of the formulas: the relative error is at most 7000 u (1 + 2κ)(1 + (M_s/M_o)²) where u is the rounding error of one operation and κ measures a negative monosymmetry constant; in double precision below 1e-10 for β_x ≥ 0 and M_s ≤ 10 M_o. The moment modification factor is within 40 u for all moments. Without such bounds the result can be 0 or an exception although the formula is positive.", "quantifier": "all segments with positive properties, all restraint codes, and all arithmetics whose operations have a relative error of at most u (double precision with any library power function is one)", "why_tests_cant": "Unit tests compare a few rounded values with a few rounded expectations. Cancellation in (√((M_s/M_o)²+3) − M_s/M_o) and in the monosymmetry term shows only at particular slendernesses, and no set of samples bounds the error.", "anchors": ["beamdesign/codecheck/as4100/S5.py: s5_6_1_M_o", "beamdesign/codecheck/as4100/S5.py: s5_6_α_s", "beamdesign/codecheck/as4100/S5.py: s5_6_3_k_t", "beamdesign/codecheck/as4100/S5.py: s5_6_1_α_m"]}
{"id": "C103", "title": "Rounding does not spoil the shear capacities", "statement": "For all positive inputs the shear capacity of a web computed in floating point has a relative error of at most 60 u, even when rounding puts the web on the other side of the slenderness limit; in double precision below 1e-14. The capacities of hollow sections and interfaces and the non-uniform stress factor have at most 16 u, and the capacity limited by n welds at most 4 (n + 2) u.", "quantifier": "all positive inputs, all lists of weld capacities, all arithmetics whose operations have a relative error of at most u", "why_tests_cant": "The factor has two branches and rounding can select the other one; that this is harmless for every web, and that errors never accumulate beyond a bound, is a statement about all inputs.", "anchors": ["beamdesign/codecheck/as4100/S5_Shear.py: s5_11_5_α_v", "beamdesign/codecheck/as4100/S5_Shear.py: s5_11_4_V_w_Generic", "beamdesign/codecheck/as4100/S5_Shear.py: s5_11_4_V_w_CHS", "beamdesign/codecheck/as4100/S5_Shear.py: s5_11_3_α_vma", "beamdesign/codecheck/as4100/S5_Shear.py: s5_11_4_V_w_Weld", "beamdesign/codecheck/as4100/S5_Shear.py: s5_11_4_V_w_Interface"]}
{"id": "C104", "title": "Rounding does not spoil the column capacity", "statement": "The flexural buckling capacity s6_3_3_N_c computes in floating point is close to the value of the formulas: the relative error is at most 410000 u (λ_n + 40)/|λ| + 100 u (ξ λ/90)², in terms of the intermediate values returned and the rounding error u of one operation; in double precision below 1e-9 for every column of nominal slenderness between 13.5 and 1000 and every member constant in [-1, 1]. For stocky columns it fails: with the default α_b, slendernesses near 6.928 give factors such as 0 and 1.57 where the formula gives 1.", "quantifier": "all columns with positive properties, all member constants in [-1, 1], all arithmetics whose operations have a relative error of at most u", "why_tests_cant": "The formula subtracts nearly equal numbers twice. The failures lie in a range of slenderness of relative width 1e-6 that no table of test values meets, and no set of samples bounds the error elsewhere.", "anchors": ["beamdesign/codecheck/as4100/S6.py: s6_3_3_N_c", "beamdesign/codecheck/as4100/S6.py: s6_3_3_α_c", "beamdesign/codecheck/as4100/S6.py: s6_3_3_λ_n"]}
{"id": "C105", "title": "The intermediate results of a torsional capacity describe the section that was checked", "statement": "When s6_3_3_N_c_torsion (or s6_1_1_Nc with torsion) returns, the dictionary of intermediate results names the AS 4600 clause that was used, the kind of symmetry when the section has axes of symmetry and the axis when it has one; its entries r_x, r_y, x_o, y_o and f_ox are the data and Euler stress of the member about those axes; for an unsymmetric section it holds the Euler stresses and the coefficients of the cubic equation.", "quantifier": "all members, symmetries and histories of earlier calls; for the labels also any writing and deleting by callers in dictionaries returned earlier", "why_tests_cant": "the dictionary is taken from a cache and shared with earlier results, so what it holds on return depends on the whole history of calls and writes", "anchors": ["beamdesign/codecheck/as4100/S6.py:s6_3_3_N_c_torsion", "beamdesign/codecheck/as4100/S6.py:f_oc_single_symmetric", "beamdesign/codecheck/as4100/S6.py:f_oc_double_symmetric", "beamdesign/codecheck/as4100/S6.py:f_oc_point_symmetric", "beamdesign/codecheck/as4100/S6.py:f_oc_unsymmetric", "beamdesign/codecheck/as4100/S6.py:s6_1_1_Nc"]}
{"id": "C106", "title": "Rounding does not spoil the torsional buckling capacity", "statement": "The flexural-torsional stress f_oxz and the capacity s6_3_3_N_c_torsion computes in floating point for a doubly, singly or point symmetric section are close to the values of the formulas: the stress is a real number with a relative error of at most 1100 u κ and the capacity has one of at most 4000 u κ, where u is the rounding error of one operation and κ = (f_ox + f_oz)⁴ / (β f_ox f_oz ((f_ox + f_oz)² - 4 β f_ox f_oz)); 400 u for a point symmetric section. In double precision that is below 1e-7 for usual sections. It fails when f_ox and f_oz nearly coincide in a doubly symmetric section, where the capacity is a TypeError about a complex number, when one of them is much larger than the other, and when the slenderness λ_c is within rounding of 1.5.", "quantifier": "all members with positive properties, all arithmetics whose operations have a relative error of at most u and all power functions with one of at most 2u", "why_tests_cant": "The formula takes the root of a difference of nearly equal numbers and subtracts it from a nearly equal one. The failures need two stresses that agree to eight digits or a slenderness that agrees with 1.5 to sixteen, which no table of test values meets, and no set of samples bounds the error elsewhere.", "anchors": ["beamdesign/codecheck/as4100/S6.py: f_oxz", "beamdesign/codecheck/as4100/S6.py: f_oc_double_symmetric", "beamdesign/codecheck/as4100/S6.py: f_oc_single_symmetric", "beamdesign/codecheck/as4100/S6.py: f_oc_point_symmetric", "beamdesign/codecheck/as4100/S6.py: s6_3_3_N_c_torsion"]}
{"id": "C107", "title": "A longer or less stiff member is not stronger in torsional buckling", "statement": "For a section with a double, single or point symmetry, increasing the length or an effective length factor, or decreasing J, I_w, E, G, k_f or the uncertainty factor, never increases the elastic buckling stress f_oc or the capacity s6_3_3_N_c_torsion; nor does moving the shear centre away from the centroid along the axis of symmetry. The governing capacity N_c and φN_c of s6_1_1_Nc never increase with the length and the effective length factors, with or without the torsional check.", "quantifier": "all members with positive properties and a symmetry, all pairs of lengths and stiffnesses; for N_c all member constants α_b from -796591/840000 (about -0.948323) to 1 (C51)", "why_tests_cant": "The flexural-torsional stress is the difference of a sum and a root of a difference, so that no term of it shows in which direction it moves; a table of capacities checks single points and not the order of all pairs of members.", "anchors": ["beamdesign/codecheck/as4100/S6.py: f_oxz", "beamdesign/codecheck/as4100/S6.py: f_oc", "beamdesign/codecheck/as4100/S6.py: s6_3_3_N_c_torsion", "beamdesign/codecheck/as4100/S6.py: s6_1_1_Nc"]}
{"id": "C108", "title": "Stronger steel does not weaken a member in torsional buckling", "statement": "With a higher yield stress the capacity of s6_3_3_N_c_torsion does not decrease as long as the slenderness λ_c does not pass 1.5, and it never decreases by more than 0.05 percent; the same bound holds for N_c of s6_1_1_Nc, which without the torsional check does not decrease at all. It can decrease: the column curve drops from 0.8774 to 0.877 of the buckling stress at λ_c = 1.5.", "quantifier": "all members with positive properties, all pairs of yield stresses; for N_c all member constants α_b from -1 to 1", "why_tests_cant": "The drop is half a part in a thousand at one slenderness, below the tolerance of a test against tabulated values, and the bound has to hold for every pair of steels.", "anchors": ["beamdesign/codecheck/as4100/S6.py: s6_3_3_N_c_torsion", "beamdesign/codecheck/as4100/S6.py: s6_1_1_Nc"]}
{"id": "C109", "title": "Objects can be printed and the text says what they are", "statement": "Printing (repr or str) an object never raises, and what it shows is the data of the object: the text of a beam tells its length, number of elements and number of load cases; that of a material its type, name and standard; that of an element its section and material; str of a symmetry equals str(Symmetry(['x', 'y'])) exactly for the axes x and y, as the documentation of the class promises; and repr of two symmetries is the same only if their axes are, whatever characters the strings contain. In fact a beam with an element without a length and the str of a symmetry without axes raise TypeError, an element shows its section as its material, and materials with different properties have one text.", "quantifier": "all beams, elements, materials and symmetries, all ways to print numbers that tell different numbers apart", "why_tests_cant": "Whether different objects have different texts is a statement about all pairs of objects, with any characters in the strings; tests of repr compare a few texts.", "anchors": ["beamdesign/beam.py: Beam.__repr__", "beamdesign/element.py: Element.__repr__", "beamdesign/materials/material.py: Material.__repr__", "beamdesign/sections/circle.py: Circle.__repr__", "beamdesign/utility/symmetry.py: Symmetry.__repr__", "beamdesign/utility/symmetry.py: Symmetry.__str__"]}
{"id": "C110", "title": "Capacities calculated in several threads are the same as one after the other", "statement": "When the section 6 functions (r_ol, f_euler_torsion, f_oxz, the f_oc functions, s6_3_3_N_c_torsion, s6_1_1_Nc) are called from any number of threads, each making any list of calls, and the threads are interleaved in any way, also with entries of the caches evicted or the caches emptied in between, every call returns the numbers or raises the exception that the same call gives in a program with one thread. Every call ends after a bounded number of its own steps, whatever the other threads do: there is no deadlock and no retrying.", "quantifier": "all numbers of threads, all lists of calls per thread, all schedules of their steps, all histories before the threads start, all changes of intermediate results and emptying of caches in between", "why_tests_cant": "A test runs a few of the unboundedly many schedules, and cannot choose them; a race between look-up and insertion in a shared cache may show up in one schedule of a million.", "anchors": ["beamdesign/codecheck/as4100/S6.py: r_ol", "beamdesign/codecheck/as4100/S6.py: f_euler_torsion", "beamdesign/codecheck/as4100/S6.py: f_oxz", "beamdesign/codecheck/as4100/S6.py: f_oc_double_symmetric", "beamdesign/codecheck/as4100/S6.py: s6_3_3_N_c_torsion", "beamdesign/codecheck/as4100/S6.py: s6_1_1_Nc"]}
{"id": "C111", "title": "The intermediate results a call in a thread returns are those of that call", "statement": "When section 6 functions are called from several threads, the dictionary of intermediate results that a call returns has, from the moment it returns, the entries of that call: the same as when the call is made in a program with one thread. This is false for doubly and singly symmetric sections, whose dictionary is taken from the cache of f_oxz: a second thread may have written its own clause and symmetry into it before the first call returns. What holds for every schedule: the section data in such a dictionary (beta, f_ox, f_oz, radii, shear centre, f_oxz) is that of the section of the call; for point-symmetric and unsymmetric sections the dictionary has exactly the entries of a program with one thread and is returned by no other call in any thread.", "quantifier": "all numbers of threads, all lists of calls per thread, all schedules of their steps with other calls and emptying of caches in between, all histories of calls before the threads start", "why_tests_cant": "Whether a dictionary is mixed up depends on when the operating system switches threads; a test cannot choose the schedule and cannot run all of them.", "anchors": ["beamdesign/codecheck/as4100/S6.py: f_oxz", "beamdesign/codecheck/as4100/S6.py: f_oc_double_symmetric", "beamdesign/codecheck/as4100/S6.py: f_oc_single_symmetric", "beamdesign/codecheck/as4100/S6.py: f_oc_point_symmetric", "beamdesign/codecheck/as4100/S6.py: f_oc_unsymmetric", "beamdesign/codecheck/as4100/S6.py: s6_3_3_N_c_torsion", "beamdesign/codecheck/as4100/S6.py: s6_1_1_Nc"]}
{"id": "C112", "title": "Secant converges on functions of nearly constant slope and is accurate", "statement": "If the slope of the function lies everywhere between m > 0 and M, every answer of secant found without falling back is within M/m - 1 times the distance of the last two iterates of the root, and these agree within the tolerance. If moreover m >= 1 and M is less than twice m, secant finds the root from any two guesses whose function values are not close, after a number of iterations that is known in advance from the distance of the second guess to the root. With slopes below 1 it may raise ValueError although the iterate is exactly the root.", "quantifier": "all functions with slopes in the given range, not necessarily linear or differentiable, all guesses, tolerances and iteration limits", "why_tests_cant": "Tests solve a few equations; convergence must hold for every function of the class and every pair of guesses, however far from the root.", "anchors": ["beamdesign/utility/solvers.py: secant"]}
{"id": "C113", "title": "Rounding does not spoil the effective sections", "statement": "For positive numbers the slenderness of a plate or tube, its effective width or diameter, the effective area of a plate and the form factor of a section built up of any number of plates, computed in floating point, are close to the values of the formulas: with u the relative error of one operation the errors are at most 14u and 12u, 8u and 24u, 26u, and (34 + 8n)u for n plates. In double precision the effective width and diameter are never above the width and diameter, they are exactly equal to them whenever the slenderness given is not above the limit, the effective area of a plate is not above the product of its sides and a form factor of an effective area not above the net area is not above 1.", "quantifier": "all positive dimensions, stresses and limits, every arithmetic with relative errors of at most u, all lists of plates; for the exact statements all doubles", "why_tests_cant": "A bound for the rounding errors must hold for every input, near the limit too, where the minimum changes branch, and for every number of plates; a sample shows the errors of the sample.", "anchors": ["beamdesign/codecheck/as4100/as4100_sect_props.py: s6_2_λ_e_flatplate, s6_2_λ_e_CHS, s6_2_b_e_flatplate, s6_2_d_e_CHS, s6_2_A_e_flatplate, s6_2_k_f_Form_Factor"]}
{"id": "C114", "title": "Rounding does not spoil the member capacity", "statement": "Every number in the dictionary s6_1_1_Nc returns, computed in floating point, is close to the value of the formulas for doubly, singly and point symmetric sections: if κ bounds the condition numbers of the checks asked for, the relative errors are at most (2κ + 12)u, with u the relative error of one operation; in double precision below 1e-7 for the usual members. The member capacity computed is exactly the smallest of the capacities computed and φN_c is exactly the double φ * N_c, whichever checks are asked for.", "quantifier": "all sensible arguments (positive sizes, stresses and factors, -1 ≤ α_b ≤ 1), every combination of the checks, every arithmetic with relative errors of at most u; for the exact statements all doubles", "why_tests_cant": "The errors of lengths, slenderness, column curve and torsional stress add up along a chain of about a hundred operations with two cancellations; a sample shows neither the worst case nor the isolated members for which it fails.", "anchors": ["beamdesign/codecheck/as4100/S6.py: s6_1_1_Nc, s6_3_2_l_e, s6_3_3_N_c, s6_3_3_N_c_torsion, s6_2_N_s, s6_2_A_e"]}
{"id": "C115", "title": "No overflow or underflow for numbers of ordinary size", "statement": "For inputs of ordinary size (lengths from about 1e-6 to 1e6, stresses from about 1e-3 to 1e12, in metres and pascals or in millimetres and megapascals) no operation of the bending, shear, effective section and axial capacity functions overflows or underflows. On a machine of which nothing is known outside the range of normal doubles the functions return exactly what they return with an arithmetic that has small relative errors everywhere, raise the same exceptions, and so have the error bounds proved for such an arithmetic: 60u for webs, 26u for plates, 1e-9 for segments with M_s ≤ 10 M_o, 1e-6 for usual members.", "quantifier": "all doubles in the ranges stated for each argument, every machine arithmetic that rounds normal results with a relative error of at most u and does anything at all with other results", "why_tests_cant": "Overflow and underflow happen at intermediate results that a caller never sees (areas, squares of lengths, warping constants over powers of lengths), for particular combinations of up to twenty arguments; a sample does not reach the corners.", "anchors": ["beamdesign/codecheck/as4100/S5.py: s5_6_1_M_o, s5_6_α_s, s5_6_1_Mb, s5_6_3_l_e, s5_6_3_k_t", "beamdesign/codecheck/as4100/S5_Shear.py: s5_11_4_V_w_Generic, s5_11_5_α_v", "beamdesign/codecheck/as4100/S6.py: s6_1_1_Nc", "beamdesign/codecheck/as4100/as4100_sect_props.py"]}
{"id": "C116", "title": "The buckling stress of an unsymmetric section is a sound stress", "statement": "f_oc_unsymmetric returns a real, positive stress that is not above any of the buckling stresses about the three axes and not above the stress of AS 4600 (the smallest root of the cubic of clause 3.4.5), in whatever consistent units the member is described; a longer or less stiff unsymmetric member does not get a higher stress or torsional capacity.", "quantifier": "all members with positive properties and any position of the shear centre, all units of length and force, every root finder that returns the three roots of a cubic in any order", "why_tests_cant": "The cubic in the source differs from the one in the standard, so that nothing known about the standard's roots carries over; whether two roots become complex and are then chosen, because numpy orders complex numbers, depends on nine continuous parameters.", "anchors": ["beamdesign/codecheck/as4100/S6.py: f_oc_unsymmetric, s6_3_3_N_c_torsion, s6_1_1_Nc"]}
{"id": "C117", "title": "The answers do not depend on the version of Python", "statement": "Beam.length, list_positions, get_section, get_loads, get_tension, tension_capacity and tension_utilisation give the same answers and errors on every version of Python. (From 3.12 on the builtin sum, used for Beam.length but not for Beam.element_ends, corrects rounding errors.) In fact they do whenever no element end is rounded, and at explicit positions not beyond either length; the lengths differ by at most 2^-49 of the length per element. A position between the two lengths is refused or silently gets None for its loads, and tension_utilisation() can raise PositionNotInBeamError on one version and not on another.", "quantifier": "all beams, all arguments, the plain and both corrected ways of summing, every rounding of additions and IEEE doubles", "why_tests_cant": "Tests run on one version of Python and on few lengths; whether the last element end and the corrected sum agree depends on the last bits of all the lengths.", "anchors": ["beamdesign/beam.py: Beam.length, Beam.element_ends, Beam.list_positions, Beam.get_loads, Beam.get_section", "beamdesign/codecheck/as4100/as4100.py: AS4100.tension_utilisation"]}
{"id": "C118", "title": "The capacity of an unsymmetric section survives floating-point rounding", "statement": "The buckling stress f_oc_unsymmetric returns, the torsional capacity s6_3_3_N_c_torsion returns for an unsymmetric section and every number in the dictionary of s6_1_1_Nc, computed in double precision, are real numbers close to the values of the formulas evaluated without rounding errors; the member capacity is exactly the smallest of the capacities computed.", "quantifier": "all members with positive properties and a shear centre off both axes, every arithmetic with a bounded relative error, every root finder that is exact or has a bounded relative error on the cubic it is given", "why_tests_cant": "The coefficients of the cubic are rounded before it is solved, and the sensitivity of a root to its coefficients is unbounded: two close roots can become a complex pair, which numpy orders below the real root.", "anchors": ["beamdesign/codecheck/as4100/S6.py: f_oc_unsymmetric, s6_3_3_N_c_torsion, r_ol, f_euler, f_euler_torsion"]}
{"id": "C119", "title": "Loads entered as whole numbers or as floats give the same design", "statement": "Entering a load table with ints or with the same numbers as floats makes no difference to which tables are accepted, which positions are listed, which loads and tensions are reported (apart from the position column, see C20), or the tension utilisation, exceptions included. So a passing design is nowhere overloaded, and with one capacity the overall utilisation is that of the largest stored tension, for tables of ints too.", "quantifier": "all pairs of beams that differ only in which tables hold ints, all load cases, positions and components, every arithmetic and rounding; no int table on an element of length zero; element lengths that are floats when no positions are given", "why_tests_cant": "all tables, positions and mixtures of types", "anchors": ["beamdesign/loadcase.py: LoadCase.get_load, LoadCase._set_loads", "beamdesign/beam.py: Beam.get_loads, Beam.list_positions", "beamdesign/codecheck/as4100/as4100.py: AS4100.tension_utilisation", "beamdesign/codecheck/codecheck.py: CodeCheck.get_tension"]}
{"id": "C120", "title": "A load that is not a number never gives a passing utilisation", "statement": "Positions that are nan or infinite are rejected. Between two rows of which one has an axial load that is nan or plus infinity the reported axial load is nan or plus infinity, and between two rows whose axial loads are both infinite, also both compression, it is nan (later versions of numpy than 1.16 report the common value where both have the same sign). When tension_utilisation returns a number, every tension it rated was finite and not negative; so for a table with a nan or plus infinite axial load on an element with a length, the overall utilisation of that case never returns a number. On finite loads all this is the utilisation of the other properties.", "quantifier": "all beams, tables, load cases and positions, all placements of nan and infinities; any arithmetic that keeps stored positions apart for the first parts, exact arithmetic for the overall utilisation; with the interpolation of numpy 1.16 and of later versions", "why_tests_cant": "all tables and positions; comparisons with nan are false both ways, so each check has to be looked at", "anchors": ["beamdesign/loadcase.py: LoadCase._set_loads, LoadCase.get_load", "beamdesign/codecheck/codecheck.py: CodeCheck.get_tension", "beamdesign/codecheck/as4100/as4100.py: AS4100.tension_utilisation", "beamdesign/utility/solvers.py: secant"]}
{"id": "C121", "title": "A load case is made only from rows of seven numbers with ascending positions", "statement": "Whatever nested lists or arrays are given, a LoadCase is only made from a row of seven numbers or a table of such rows whose positions do not descend and lie between 0 and 1; anything else raises an exception.", "quantifier": "all arrays of any dimension, all tables with numbers, None and strings as entries", "why_tests_cant": "all shapes and entries", "anchors": ["beamdesign/loadcase.py: LoadCase._set_loads"]}
{"id": "C122", "title": "Interpolating finite loads in double precision gives finite loads", "statement": "With the overflow of double precision, a load that get_load reports for a table of finite loads is a finite number, for every component and position, and is the number the same formula gives without overflow.", "quantifier": "all accepted tables, components and positions", "why_tests_cant": "the slope between two rows overflows only for particular distances of positions and sizes of loads; all tables and positions", "anchors": ["beamdesign/loadcase.py: LoadCase.get_load", "beamdesign/utility/interp.py: multi_interp"]}
{"id": "C123", "title": "The utilisation of a load combination is at most the combination of the utilisations", "statement": "If on every element the loads of one load case are a times those of a second plus k times those of a third, a and k not negative, then whenever tension_utilisation gives a value for each of the three cases, that of the combination is at most a times that of the second plus k times that of the third: at given positions and overall.", "quantifier": "all beams of rods, load cases, factors and positions", "why_tests_cant": "all tables, factors, numbers of elements and positions; compression in one case relieves tension in the other", "anchors": ["beamdesign/codecheck/as4100/as4100.py: AS4100.tension_utilisation, AS4100.get_tension", "beamdesign/beam.py: Beam.get_loads", "beamdesign/loadcase.py: LoadCase.get_load"]}
{"id": "C124", "title": "Small changes of the loads change the utilisation little", "statement": "If the axial loads of a beam are changed by at most δ, at the same positions, tension_utilisation changes by at most δ over the smallest design capacity of its sections: at given positions and overall, for every choice of load cases, whenever both values are given.", "quantifier": "all beams of rods, all changes of the tables, load cases and positions", "why_tests_cant": "all tables and changes; the greatest value may move to another position, element or load case", "anchors": ["beamdesign/codecheck/as4100/as4100.py: AS4100.tension_utilisation, AS4100.get_tension", "beamdesign/beam.py: Beam.get_loads", "beamdesign/loadcase.py: LoadCase.get_load"]}
{"id": "C125", "title": "Loads are local", "statement": "What is reported at a position depends only on the loads near it. The loads, the tension and the tension utilisation at given positions do not change, errors included, when the load case is changed in elements that do not contain the positions, or, in an element that contains one, at stored positions that are neither between nor at the stored positions on either side of it. The utilisation depends on the sections of the elements that contain the positions only.", "quantifier": "all pairs of beams with the same lengths, load cases, lists of positions, components and any arithmetic, rounded or exact", "why_tests_cant": "all tables and changes of tables; the code masks, interpolates and stacks the whole table for every query", "anchors": ["beamdesign/loadcase.py: LoadCase.get_load", "beamdesign/beam.py: Beam.get_loads, Beam.list_positions, Beam.in_elements", "beamdesign/codecheck/as4100/as4100.py: AS4100.get_tension, AS4100.tension_utilisation, AS4100.get_section"]}
{"id": "C126", "title": "Components of the loads do not influence each other", "statement": "The loads reported for some components depend only on the stored positions and on the columns of these components: changing the other columns changes nothing, errors included. The tension and the tension utilisation depend only on the axial loads, whatever the shear forces, moments and torsions are.", "quantifier": "all pairs of load cases and beams that agree in the chosen components, all positions, components and any arithmetic, rounded or exact", "why_tests_cant": "all tables, all values in the other columns, all queries", "anchors": ["beamdesign/loadcase.py: LoadCase.get_load, LoadCase.get_load_indices", "beamdesign/beam.py: Beam.get_loads", "beamdesign/codecheck/as4100/as4100.py: AS4100.get_tension, AS4100.tension_utilisation"]}
{"id": "C127", "title": "Load combinations superpose in floating point", "statement": "If a load case is entered as a times one load case plus k times another with the same positions, all computed in floating point, then the loads reported for it are a times the reported loads of the one plus k times those of the other: bit for bit at stored positions, and up to 40 units of rounding of the combined magnitudes (and some underflows) at interpolated ones. The three load cases are reported at the same rows, for explicit positions and for min_positions, and raise the same errors.", "quantifier": "all tables of machine numbers, factors, requests, components and all roundings that satisfy the standard model of floating point, double precision among them", "why_tests_cant": "all tables and factors; the order of rounding and interpolation is exchanged, and no bound on the difference follows from samples", "anchors": ["beamdesign/loadcase.py: LoadCase.get_load", "beamdesign/beam.py: Beam.get_loads, Beam.list_positions"]}
{"id": "C128", "title": "The tension check does not depend on the units", "statement": "A model entered in other units of length and force (all lengths, radii and tabulated thicknesses multiplied by L, forces by F, moments by F L, strengths by F / L^2, and positions asked for by L) gives the same tension utilisation, the same answer or the same exception; the tension capacity is multiplied by F, the loads and the tension reported are the old ones in the new units, row by row. The library has no built-in units: with metres and newtons or millimetres and kilonewtons the same design comes out.", "quantifier": "all beams, sections, materials, load tables, load cases, positions or minimum numbers of points, components, and all positive factors L and F, in exact arithmetic", "why_tests_cant": "all unit systems and all inputs: a constant with hidden units (a tolerance, a default length) shows only for particular magnitudes", "anchors": ["beamdesign/codecheck/as4100/as4100.py: AS4100.tension_utilisation, tension_capacity, get_tension", "beamdesign/codecheck/as4100/as4100_sect_props.py: AS4100Section._get_f", "beamdesign/beam.py: Beam.get_loads, list_positions"]}
{"id": "C129", "title": "A governing load case decides", "statement": "If at every position along the beam one load case reports at least the tension of each of the others, and it is listed first, then the overall tension utilisation of all of them is that of this load case alone, and it is at least the utilisation of every load case at every position, also between the points assessed. The overall utilisation of a governed load case is never above that of the governing one, wherever their loads are stored. A load case whose stored axial loads are all at least m governs one whose stored axial loads are all at most m.", "quantifier": "all beams with float element lengths, all sets of load tables of floats, all stored positions (different in each load case), all numbers of assessment points, all positions from 0 to the total length", "why_tests_cant": "all curves between all stations; the points assessed are those of the first load case, so whether another load case is missed depends on every position", "anchors": ["beamdesign/codecheck/as4100/as4100.py: AS4100.tension_utilisation", "beamdesign/codecheck/codecheck.py: CodeCheck.get_tension"]}
{"id": "C130", "title": "Reported loads can be entered again", "statement": "The array that LoadCase.get_load returns for all six components, at positions which include every stored position (min_positions=n, or a list of positions of the element containing them), is accepted as the loads of a new LoadCase, and the new LoadCase answers every explicit request (any positions, any components) with the same numbers. In floating point as well, listing the new LoadCase in the same way returns the very same array: entering and listing again adds no further rounding.", "quantifier": "for every well formed non-empty table (ints or floats, with repeated positions), every n or list of positions covering the stored ones, and every later request; for exact arithmetic, and for any arithmetic for the array listed again", "why_tests_cant": "it quantifies over all tables, all numbers of positions and all later requests; the interpolated rows must not disturb any stored row, any jump or any value between", "anchors": ["beamdesign/loadcase.py:LoadCase.get_load", "beamdesign/loadcase.py:LoadCase._set_loads", "beamdesign/loadcase.py:LoadCase.list_positions"]}
{"id": "C131", "title": "Listing loads at a number of positions works in double precision", "statement": "In double precision LoadCase.list_positions(min_positions=n) never raises for a load case with loads and n up to 2**50: the positions ascend strictly, lie between 0 and 1, number n or more, contain every stored position exactly, and contain for each of the n equally spaced positions one at most 2**-51 away from it (the first and last exactly); nothing else is listed. LoadCase.get_load(min_positions=n) reports loads at exactly these positions.", "quantifier": "for every well formed table, every n up to 2**50 and every choice of components, in IEEE double precision", "why_tests_cant": "the check that enough positions were found depends on n rounded products being different; no finite number of n shows that none collide or leave the element", "anchors": ["beamdesign/loadcase.py:LoadCase.list_positions", "beamdesign/loadcase.py:LoadCase.get_load"]}
{"id": "C132", "title": "The overall utilisation does not depend on how the member is divided or from which end it is described", "statement": "For a call of tension_utilisation about one load case without a position, whenever it returns: adding a redundant row to the table of an element (a row on the line between its neighbours), cutting an element in two at any position of its table (with the section repeated), or describing the whole beam from its other end leaves the returned utilisation unchanged. Asked about several load cases at once the number can depend on the division, because only the stored positions of the first one are assessed.", "quantifier": "for every beam of elements with positive float lengths and well formed float tables, every section and capacity factor with a positive capacity, every number of assessment points, every redundant row, every place of a cut, in exact arithmetic", "why_tests_cant": "it compares the maximum over two different sets of assessed positions, for all tables, cuts and numbers of assessment points; the evenly spaced positions of the divided member are different ones", "anchors": ["beamdesign/codecheck/as4100/as4100.py: AS4100.tension_utilisation", "beamdesign/beam.py: Beam.list_positions", "beamdesign/beam.py: Beam.get_loads"]}
{"id": "C133", "title": "A member without loads is not passed", "statement": "Whenever tension_utilisation returns a number, loads are stored for every load case asked about on every element at the positions asked about, and on every element of the beam when no position is given: an element whose LoadCase has no loads (LoadCase() or an empty table) makes the check raise an exception, it is not taken as unstressed. A beam made by Beam.empty_beam has one element with the given length and section and the load case 0; a check of it never returns a number, whatever is asked.", "quantifier": "for every beam with non-negative lengths (zero included), every mixture of load cases with and without loads, every choice of load cases and positions, every object made from empty_beam; exact arithmetic", "why_tests_cant": "it says that no combination of unloaded elements, load cases and positions slips through as a utilisation of 0; a test shows that for single combinations", "anchors": ["beamdesign/codecheck/as4100/as4100.py: AS4100.tension_utilisation", "beamdesign/codecheck/codecheck.py: CodeCheck.get_tension", "beamdesign/beam.py: Beam.get_loads", "beamdesign/beam.py: Beam.empty_beam", "beamdesign/element.py: Element.empty_element"]}
{"id": "C134", "title": "The elastic buckling loads and stresses are those of the textbook", "statement": "N_euler is π²EI/l_e², f_euler is π²E/(l_e/r)² and f_euler_torsion is (GJ + π²E I_w/l_ez²)/(A (r_x² + r_y² + x_o² + y_o²)), with a relative error of at most 2^-52 from math.pi and at most 80 u + 2^-52 when every operation has a relative error of at most u. N_euler for the second moment of area A r² is A times f_euler. N_euler and f_euler raise ZeroDivisionError exactly for a length (or a radius of gyration) of 0 and nothing else.", "quantifier": "for all positive section properties, lengths and moduli, any position of the shear centre, and all arithmetics whose operations have a relative error of at most u", "why_tests_cant": "it holds for every real argument and every rounding, with the real number π on one side", "anchors": ["beamdesign/codecheck/as4100/S6.py: N_euler", "beamdesign/codecheck/as4100/S6.py: f_euler", "beamdesign/codecheck/as4100/S6.py: f_euler_torsion"]}
{"id": "C135", "title": "A beam passing the check in double precision is nowhere overloaded, wherever its loads are stored", "statement": "If the overall tension utilisation computed in binary64 is at most 1, then at every point of every element the true axial load (the piecewise linear curve, in real arithmetic) is above 1 + 2^-46 times the true design capacity of that element by no more than 2^-49 W (1 + R/g), where W is the largest magnitude of a stored axial load, g the smallest distance between stored positions of an element and R the ratio of the length of the beam to its shortest element. More generally it is above (1 + 2^-46) times the larger of the utilisation and 1/10000 times the capacity by no more than that. This holds for loads stored at any positions, on or off the grid of doubles, in the first load case and in every load case whose stations are stations of the first one (C84 shows that two loads stored at the same position off the grid can be missed altogether).", "quantifier": "every beam of solid circles whose element ends are doubles and whose elements are not below 2^-100, all data that are doubles not below 2^-100, every set of doubles as loads at distinct positions and not above 5000 times the capacity, every number of assessment points", "why_tests_cant": "the claim is about all points of the beam and all doubles; a test checks some", "anchors": ["beamdesign/codecheck/as4100/as4100.py: AS4100.tension_utilisation, AS4100.φNt, AS4100.get_tension", "beamdesign/beam.py: Beam.list_positions, Beam.get_loads", "beamdesign/utility/solvers.py: secant"]}
{"id": "C136", "title": "Impossible data are refused rather than answered with a complex number", "statement": "Python's `x ** 0.5` is a complex number when x is negative. Called with floats of any sign, the compression capacity s6_1_1_Nc (of a section with an axis or point of symmetry), s6_3_3_N_c, s6_3_3_N_c_torsion, the shear factor s5_11_5_α_v, the moment factor s5_6_1_α_m, s6_2_d_e_CHS and s6_2_A_e_flatplate never return a complex number: they return exactly the real formula, raise what it raises, or, where the root of a negative number is taken, raise TypeError or ZeroDivisionError. The bending chain and the compression capacity of unsymmetric sections should do the same. For unsymmetric sections, where the formula gives real numbers, those are returned. (Otherwise neither holds: for an unequal angle in millimetres numpy's complex roots take part, the buckling stress and the torsional capacity N_cz are complex numbers with an imaginary part that is not 0, nothing is raised, and N_c is complex where N_cz has the smallest real part; with a negative I_y the reference moment, the slenderness factor and the member bending capacity are complex numbers with an imaginary part that is not 0, and nothing is raised; s6_3_3_λ_n and s6_2_λ_e_flatplate return complex numbers too.)", "quantifier": "all floats of any sign as arguments, in exact arithmetic; all symmetric sections, and all unsymmetric ones for which the formula gives real numbers", "why_tests_cant": "the sign combinations and the values at which complex arithmetic happens to give zero form a continuum; tests use sensible data", "anchors": ["beamdesign/codecheck/as4100/S6.py: s6_1_1_Nc, s6_3_3_N_c, s6_3_3_N_c_torsion, f_oxz, f_oc_unsymmetric, s6_3_3_λ_n, s6_3_3_α_c", "beamdesign/codecheck/as4100/S5.py: s5_6_1_M_o, s5_6_α_s, s5_6_1_α_m, s5_6_1_Mb", "beamdesign/codecheck/as4100/S5_Shear.py: s5_11_5_α_v", "beamdesign/codecheck/as4100/as4100_sect_props.py: s6_2_λ_e_flatplate, s6_2_d_e_CHS, s6_2_A_e_flatplate"]}
{"id": "C137", "title": "Bisection finds its root in double precision", "statement": "Computed in IEEE double precision, with overflow to infinity and gradual underflow: bisection from two doubles of at most half the largest one, with a tolerance of at least 2^-1000, always ends, within a number of iterations known in advance from the width of the bracket and the tolerance, and an answer is a finite double inside the bracket. If the function gives finite doubles, has different signs at the guesses and tol is at least 2^-500, an answer is found: the function is within tol of zero there, or the answer lies between two doubles, no further apart than tol or 1e-9 of its size (give or take 2^-20), between which the function changes sign. If the Python function computes a continuous real function with an error of at most e, a point where that function is within tol + e of zero lies that close to the answer. The default guesses, plus and minus the largest double, with the default tolerance and limit, work for functions that keep their sign in the outer half of the range. (Outside these conditions it fails: with a nan tolerance the middle of the bracket is returned without calling the function; with the default guesses and a root in the outer half of the range the bracket overflows to infinity and the limit of iterations is reached; with a tolerance of 2^-545 the product of two values underflows and a point without any sign change near it is returned; with tolerance 0 and no limit of iterations the loop never ends.)", "quantifier": "all functions on doubles, all pairs of finite double guesses, all tolerances, iteration limits and bracket widths", "why_tests_cant": "the number of doubles in a bracket and the ways rounding can move the midpoint are too many to test, and non-termination is not an outcome a test can observe", "anchors": ["beamdesign/utility/solvers.py: bisection"]}
{"id": "C138", "title": "The secant method in double precision fails only as documented", "statement": "Computed in IEEE double precision with overflow and gradual underflow, secant from finite guesses never raises ZeroDivisionError of its own and never reads its result before it is set, for every function (with any values, infinite or nan included), every tolerance other than nan and every iteration limit; an answer found without falling back to bisection is a finite double, reached from the guesses by as many secant steps as are reported, at least one, and the guess before it agrees with it to within tol or 1e-9 of its size, give or take 2^-20. (With a nan tolerance every call raises UnboundLocalError. And agreement is not being a root: for 1 + 1e20 (1 - x)^2, which is nowhere below 1, secant reports the root 1 from the guesses 0 and 1.)", "quantifier": "all functions on floats, all finite double guesses, all tolerances, iteration limits and fallback settings", "why_tests_cant": "whether a difference of two doubles that are not close can be zero, or a quotient finite, depends on the rounding of every pair of doubles", "anchors": ["beamdesign/utility/solvers.py: secant"]}
{"id": "C139", "title": "A tension utilisation is never silently wrong, however large or small", "statement": "Computed in IEEE double precision (no intermediate result beyond the largest double), with a capacity of at least 2^-900 and tensions of any size up to 2^1000 times the capacity: tension_utilisation at given positions and load cases returns the largest tension over capacity with a relative error below 2^-43, or it raises ValueError. It raises only if one of the tensions is positive and less than a ten thousandth of the capacity there, and it always raises if one is positive and less than 4e-15 of the capacity. So a load beyond the capacity by one part in 2^42 or more, even 1e300 times the capacity, is never reported as within it, nor lost, unless another of the tensions is that slight.", "quantifier": "all objects with all beams, sections, materials and loads, all load cases and positions, and all sizes of tensions and capacities that are doubles", "why_tests_cant": "the secant method starts from -100000 and 100000 whatever the size of the answer; rounding makes its first steps useless for large and for small utilisations, and whether it recovers depends on every rounding error on the way", "anchors": ["beamdesign/codecheck/as4100/as4100.py: tension_utilisation", "beamdesign/utility/solvers.py: secant"]}
{"id": "C140", "title": "A tension utilisation is never silently wrong, even when numbers overflow", "statement": "Computed on IEEE doubles with overflow, infinities and nan, and with the tolerances 1e-9 rounded to doubles, for a capacity of at least 2^-900 and tensions of any size: tension_utilisation at given positions and load cases returns the largest tension over capacity with a relative error below 2^-43, or it raises ValueError. It raises only if one of the tensions is positive and less than a ten thousandth of the capacity there, or if a tension or its capacity is above 2^1000 or a tension is more than 2^900 times the capacity. A load beyond the capacity by one part in 2^42 or more is reported as such or refused, never reported as within the capacity.", "quantifier": "all objects with all beams, sections, materials and loads, all load cases and positions, and all sizes of tensions and capacities that are doubles", "why_tests_cant": "an overflow in any of the products and quotients of the secant method could turn into a wrong finite number, since a finite number divided by an infinity is 0; that this never happens has to be shown for every size of tension and capacity and every guess on the way", "anchors": ["beamdesign/codecheck/as4100/as4100.py: tension_utilisation", "beamdesign/utility/solvers.py: secant"]}
{"id": "C141", "title": "A design that passes on IEEE doubles is safe in real arithmetic, whatever the size of the loads", "statement": "On IEEE doubles with overflow in the solution for each tension, for beams of solid circular rods whose element ends are doubles, and in the first load case and every load case whose stations are among its stations: if tension_utilisation without positions returns v, then with loads stored on the grid of doubles the true axial load is nowhere on any element above 1 + 2^-42 times v times the true design capacity of that element; with loads up to W stored at any positions at least g apart, it is nowhere above that by more than 2^-49 W (1 + R/g) + 2^-1073, where R bounds the length of the beam over the length of an element. In particular v at most 1 means no overload, and v = 0 means no tension at all. The loads may have any size: there is no lower limit on v and no limit on the loads in terms of the capacity.", "quantifier": "all beams of circular rods, materials, design data of at least 2^-100, load cases, numbers of assessment points and loads that are doubles of any size, at all real positions along the beam", "why_tests_cant": "the claim is about all real positions between the positions assessed, about the exact value of pi, and about every rounding and overflow in the listing of positions, the interpolation, the capacity and the secant method together", "anchors": ["beamdesign/codecheck/as4100/as4100.py: tension_utilisation, phi_nt, get_tension", "beamdesign/beam.py: list_positions, get_loads", "beamdesign/utility/solvers.py: secant"]}
{"id": "C142", "title": "The whole tension check on IEEE doubles, with overflow to infinities and nan, is safe", "statement": "With every operation of tension_utilisation on IEEE doubles (interpolation of loads, areas, strengths, capacities, the solution for each tension and the maximum all able to overflow to an infinity or to nan), for beams of solid circular rods whose element ends are doubles and with radii, strengths and factors from 2^-100 to 2^100: if the check returns a finite number v, then with loads of any size stored on the grid of doubles the true axial load is nowhere above 1 + 2^-42 times v times the true design capacity, in the first load case and every load case whose stations are among its stations; and if what the check returns compares as at most 1, whatever it is, there is no overload by more than rounding. With loads up to 2^100 stored at any positions at least 2^-900 apart, for all arguments the check gives exactly the number or exception of the check of C140, so no overflow happens, and a result of at most 1 is safe as in C141. The upper limit on the data is needed: for a rod of radius 2^300 the product of area and tensile strength overflows, the factor kt loses its effect, and the check passes under more than 300000 times the true capacity.", "quantifier": "all beams of circular rods, materials, design data from 2^-100 to 2^100, load cases, position arguments, numbers of assessment points and loads that are doubles, at all real positions along the beam", "why_tests_cant": "overflow happens only at loads and data no test uses, at any of the operations of the check, and an infinity or nan may be lost in a comparison or a maximum later on", "anchors": ["beamdesign/codecheck/as4100/as4100.py: tension_utilisation, phi_nt, nt, get_tension, s7_2_Nt, s7_2_Nty, s7_2_Ntu", "beamdesign/beam.py: get_loads", "beamdesign/loadcase.py: LoadCase.get_load", "beamdesign/sections/circle.py: Circle.area", "beamdesign/utility/solvers.py: secant"]}
{"id": "C143", "title": "Attributes hold what was last written to them", "statement": "After any history of assignments to radii, materials, lengths, sections, wrappers' sections, factors and assessment points, and of newly made objects, every section has the radius and material last assigned to it, every element the length and section last assigned to it and the loads it was made with, every wrapper the section last assigned to it, and the AS4100 object the factors and number of points last assigned to it; attributes never assigned keep their first value. Unless the list beam.elements itself is changed, the results of the AS4100 object are computed from exactly these values.", "quantifier": "all worlds of sections, elements, a beam and an AS4100 object, and all histories of changes of any length", "why_tests_cant": "histories are unbounded and an assignment to one object could affect any other object or attribute", "anchors": ["beamdesign/sections/circle.py: Circle", "beamdesign/element.py: Element", "beamdesign/beam.py: Beam.elements", "beamdesign/codecheck/as4100/as4100.py: AS4100"]}
{"id": "C144", "title": "Counts are those of the parts", "statement": "LoadCase.num_positions is the number of rows the load case was made of (1 for a single row, TypeError without loads); Beam.no_elements is the number of elements given; Beam.no_load_cases and Element.no_load_cases are the number of different load cases, the same on all elements of an accepted beam; Beam.length exists if and only if all elements have a length and raises TypeError otherwise.", "quantifier": "all load arguments, element lists and beams", "why_tests_cant": "lists have any number of rows, elements and load cases, with repetitions", "anchors": ["beamdesign/loadcase.py: num_positions", "beamdesign/element.py: no_load_cases", "beamdesign/beam.py: no_elements, no_load_cases, length"]}
{"id": "C145", "title": "Printed strings can be read back", "statement": "The text Symmetry prints for a string among its axes is a Python literal that denotes exactly this string, whatever characters it has; a literal denotes only one string. repr of a symmetry is the list of these literals and of the angles, in order, separated by commas, or Symmetry(None). The texts of sections, elements and load cases say None exactly where there is no material, section, length or load.", "quantifier": "all strings, lists of axes, sections, elements and load cases, and all ways to print numbers", "why_tests_cant": "strings have any length and any of 1.1 million characters, quotes and escapes among them", "anchors": ["beamdesign/utility/symmetry.py: Symmetry.__repr__", "beamdesign/sections/circle.py: Circle.__repr__", "beamdesign/element.py: Element.__repr__", "beamdesign/loadcase.py: LoadCase.__repr__"]}
{"id": "C146", "title": "A design that passes on IEEE doubles is safe for elements of any lengths", "statement": "For beams of up to 2^50 solid circular rods whose lengths are any doubles of at least 2^-100 (the distances of their ends from the start of the beam, such as 0.1 + 0.7, need not be doubles and are rounded), with loads that are doubles of magnitude up to W stored at positions at least g apart and no rod shorter than the beam divided by R: if tension_utilisation returns a number v, the true axial load is nowhere above 1 + 2^-42 times v times the true design capacity by more than 2^-49 W (1 + R / g) and an underflow, in the first load case and in every load case whose stations are among its stations; so a result of at most 1 means no overload by more than rounding. The same holds for the check of C142, in which every operation can overflow, with data and loads up to 2^100. There need not be a result: with rods of 0.1 and 0.2 the check raises PositionNotInElementError.", "quantifier": "all beams of circular rods with double lengths, materials, design data, load cases, numbers of assessment points and loads that are doubles, at all real positions along the beam", "why_tests_cant": "element ends are rounded differently for every list of lengths; a stored load is looked up at a position that went to the beam and back through five roundings, and may end up past the end of its element or beside a step", "anchors": ["beamdesign/codecheck/as4100/as4100.py: tension_utilisation", "beamdesign/beam.py: element_ends, in_elements, beam_to_local_position, local_to_beam_position, list_positions, get_loads"]}
{"id": "C147", "title": "A load case the beam does not have is always refused", "statement": "For a load case that none of the elements of the beam has, Element.get_loads and Element.load_positions raise KeyError whatever else they are asked; Beam.get_loads, get_loads and get_tension of a code check never return loads, and tension_utilisation never returns a number, not even when the load case is one of several checked together, for any positions and however numbers are rounded. With exact numbers Beam.get_loads raises KeyError for every position on the beam and for every number of equally spaced positions.", "quantifier": "all beams, load cases, positions, numbers of positions, components, lists of load cases and roundings", "why_tests_cant": "a result for an unknown load case could come from any combination of positions, zero length elements and lists of load cases; a missing load case must not be taken as unloaded for any of them", "anchors": ["beamdesign/element.py: get_loads, load_positions", "beamdesign/beam.py: get_loads, list_positions", "beamdesign/codecheck/codecheck.py: get_loads, get_tension", "beamdesign/codecheck/as4100/as4100.py: tension_utilisation"]}
{"id": "C148", "title": "The caches of the compression formulas stay small and keep what is in use", "statement": "However long a program runs, whatever it calls and whatever it does to the results, none of the caches of r_ol, f_euler_torsion and f_oxz ever holds more than 128 results. Once f_oxz has answered for some arguments, it answers with the same dictionary of intermediate results, and creates no new one, as long as its cache is not emptied and at most 127 other sets of arguments are asked for in between, directly or through the buckling checks, in any order and however often. After f_oxz has answered for 128 or more other sets of arguments since, it makes a new dictionary, different from all there were, whatever happened before.", "quantifier": "all histories of calls, changes to results and clearings of caches, of any length; all section data", "why_tests_cant": "the order of evictions depends on the whole history, including hits and calls made by other calls; tests use short histories", "anchors": ["beamdesign/codecheck/as4100/S6.py: r_ol, f_euler_torsion, f_oxz, f_oc_double_symmetric, f_oc_single_symmetric, s6_3_3_N_c_torsion, s6_1_1_Nc"]}
{"id": "C149", "title": "Reversing loads reverses what is reported, to the last bit", "statement": "Reverse the sign of any of the components of a load case on all elements of a beam: Beam.list_positions is unchanged, and Beam.get_loads reports the same positions with exactly the reversed numbers for these components and the same numbers for the others, in double precision, for every argument, with tables of whole numbers, elements without loads and errors included. So what get_tension reports for the reversed loads are exactly the compressions of before, and no tension where there was tension. The same holds for LoadCase.get_load, and for any factors that the arithmetic respects, so for all factors with exact numbers.", "quantifier": "all beams, load tables, components, positions and numbers of positions, all sets of reversed components, all symmetric roundings and all unstable sorts", "why_tests_cant": "numpy's interpolation uses a different formula on each side of a knot and the rounding of each operation could favour a sign; equality to the last bit has to hold for all numbers", "anchors": ["beamdesign/loadcase.py: get_load", "beamdesign/utility/interp.py: multi_interp", "beamdesign/element.py: get_loads", "beamdesign/beam.py: get_loads, list_positions", "beamdesign/codecheck/codecheck.py: get_tension"]}
{"id": "C150", "title": "Units which differ by powers of two give the same digits", "statement": "Rescale a model to units of length and force which differ by powers of two: lengths, positions and thicknesses with 2^k, forces with 2^m, moments with both, strengths accordingly. Rounding every operation to 53 binary digits, as long as nothing underflows or overflows, the tension capacity, the loads and the tensions reported (load tables with decimals) are exactly the rescaled numbers, and tension_utilisation gives the same number to the last bit, for every beam, load case and position, errors included. For other factors this fails: from metres to millimetres the utilisation in doubles may change in the last digit.", "quantifier": "all AS4100 objects, beams, load cases, positions and numbers of positions, all integers k and m, all unstable sorts and all versions of the builtin sum", "why_tests_cant": "the utilisation comes from an iteration with up to 20000 roundings whose number of steps depends on the numbers; equality to the last bit has to hold for every model and every pair of units", "anchors": ["beamdesign/codecheck/as4100/as4100.py: AS4100.tension_utilisation, tension_capacity, get_tension", "beamdesign/utility/solvers.py: secant", "beamdesign/beam.py: list_positions, get_loads", "beamdesign/loadcase.py: get_load", "beamdesign/utility/interp.py: multi_interp"]}
{"id": "C151", "title": "Rounding never makes more material weaker", "statement": "The monotonicity of the tension checks survives floating point. Whatever monotone rounding is applied after each operation, and so in doubles: with no smaller areas, strengths and factors (none negative) each of the six capacities of s7_1_N_t is no smaller; each of the six areas of s7_1_A_reqd is no larger for a smaller load and for larger strengths and factors; and an AS4100 object whose rods are no thinner, whose steel is no weaker and whose factors are no smaller reports at every position capacities Nty, Ntu, Nt, φNty, φNt and tension_capacity that are no smaller, or the same exception. In particular thicker rods in the same band of the strength table never have a smaller capacity in doubles. Strictness is not claimed: a larger area may have the same capacity after rounding.", "quantifier": "all monotone roundings, all areas, strengths and factors, all pairs of AS4100 objects with the same layout, all positions", "why_tests_cant": "a last-digit reversal would show only for particular pairs of neighbouring numbers; there are far too many pairs of doubles to try", "anchors": ["beamdesign/codecheck/as4100/S7.py: s7_1_N_t, s7_1_A_reqd", "beamdesign/codecheck/as4100/as4100.py: AS4100.tension_capacity, Nt, Nty, Ntu, φNt, φNty, get_as4100_section", "beamdesign/sections/circle.py: area"]}
{"id": "C152", "title": "Rounding keeps members in order", "statement": "Where exact arithmetic never gives a longer, thinner or weaker member a larger capacity, neither do doubles. This holds for every formula made of sums, products, quotients, roots, minima and maxima of nonnegative numbers, whatever monotone rounding is used: the shear yield capacities of webs and tubes, welds and interfaces; the shear buckling coefficient (never above 1) and the capacity of a thicker web; the factor for non-uniform shear; the reference buckling moment of a longer segment; the modified slenderness, Euler load and stress and torsional buckling stress of a longer column; effective widths, areas and diameters of thicker plates and tubes. It fails where the formulas subtract or where two effects cancel: in doubles a slender web of 253 MPa can be weaker than one of 252 MPa, a column and a segment in bending longer by one unit in the last place can be stronger.", "quantifier": "all monotone roundings and all pairs of nonnegative arguments, the one no larger than the other", "why_tests_cant": "reversals in the last digit show only for particular pairs of neighbouring numbers", "anchors": ["beamdesign/codecheck/as4100/S5_Shear.py: s5_11_4_V_w_Generic, s5_11_4_V_w_CHS, s5_11_4_V_w_Weld, s5_11_4_V_w_Interface, s5_11_5_α_v, s5_11_3_α_vma", "beamdesign/codecheck/as4100/S5.py: s5_6_1_M_o, s5_6_α_s, s5_6_1_Mb", "beamdesign/codecheck/as4100/S6.py: s6_3_3_λ_n, N_euler, f_euler, f_euler_torsion, s6_3_3_N_c", "beamdesign/codecheck/as4100/as4100_sect_props.py: s6_2_A_e_flatplate, s6_2_d_e_CHS"]}
{"id": "C153", "title": "Member, bending and shear capacities have the same digits in units which differ by powers of two", "statement": "Change the units of length and force by powers of two and convert all arguments. Rounding every operation to 53 binary digits, as long as nothing underflows or overflows, s6_1_1_Nc returns a dictionary whose numbers are exactly the converted ones, for sections with two axes, one axis or a point of symmetry, and raises the same exceptions; so do the column check, the shear capacities and factors and the effective sections; the factors of section 5 are unchanged. The reference buckling moment has this property when the unit of force changes by a power of four; for a factor of two its last digit may change, because roots of forces are taken. Unsymmetric sections are not covered: one of their coefficients adds unlike powers of length (C43).", "quantifier": "all arguments, all integer exponents of the units of length and force, all power functions pow(0.658, x)", "why_tests_cant": "equality to the last bit after dozens of roundings, a minimum over several checks and comparisons with thresholds must hold for every argument and every pair of units", "anchors": ["beamdesign/codecheck/as4100/S6.py: s6_1_1_Nc, s6_3_3_N_c, s6_3_3_N_c_torsion, f_oxz, f_euler_torsion", "beamdesign/codecheck/as4100/S5.py: s5_6_1_M_o, s5_6_α_s, s5_6_1_α_m, s5_6_3_k_t, s5_6_1_Mb", "beamdesign/codecheck/as4100/S5_Shear.py: s5_11_5_α_v, s5_11_3_α_vma, s5_11_4_V_w_Weld, s5_11_4_V_w_Interface", "beamdesign/codecheck/as4100/as4100_sect_props.py: s6_2_A_e_flatplate, s6_2_d_e_CHS"]}
{"id": "C154", "title": "Where rounding turns the order of two members round, it does so only in the last digits", "statement": "In doubles a longer column or segment, or a web of a thinner plate or weaker steel, can come out stronger than the better one (C152). It never does so by more than a few units in the last digits: two parts in 10^14 for all webs, three parts in 10^9 for columns of a modified slenderness from 13.5 to 1000, three parts in 10^10 for segments that are not very slender, and three parts in 10^7 for the governing capacity of a symmetric compression member in the usual range. It is false for stocky columns: near the slenderness 6.93 a column has no capacity at all and one longer by a few parts in 10^8 has more than one and a half times its squash load.", "quantifier": "all pairs of members in the ranges given, all arithmetics with small relative errors (webs), doubles without overflow or underflow (the others)", "why_tests_cant": "the bound must hold for every pair of members, however close, after dozens of roundings of each", "anchors": ["beamdesign/codecheck/as4100/S6.py: s6_1_1_Nc, s6_3_3_N_c", "beamdesign/codecheck/as4100/S5.py: s5_6_1_M_o, s5_6_α_s, s5_6_1_Mb", "beamdesign/codecheck/as4100/S5_Shear.py: s5_11_5_α_v, s5_11_4_V_w_Generic"]}
{"id": "C155", "title": "The length of a beam and the capacity of welds are as accurate for many parts as for two", "statement": "Beam.length and s5_11_4_V_w_Weld are right to the last digits however many elements or welds there are. From Python 3.12 on, where the builtin sum corrects rounding errors, they are: with up to 33 million floats the relative error of the length is at most 2^-52 and that of the weld capacity 5 * 2^-53, whatever the lengths or strengths are. Up to Python 3.11 it is false: the error grows with the number of parts (at most 2^-52 for each), and one part of 1 with any number of parts of 2^-53 gives 1.", "quantifier": "all lists of non-negative doubles up to the length given, all versions of Python", "why_tests_cant": "the bound must hold for every list of lengths, of every size; it rests on each correction being the exact rounding error", "anchors": ["beamdesign/beam.py: Beam.length", "beamdesign/codecheck/as4100/S5_Shear.py: s5_11_4_V_w_Weld"]}
{"id": "C156", "title": "A utilisation for several load cases and positions is the largest of those asked for one by one", "statement": "tension_utilisation for a list of load cases and a list of positions answers iff the call for each load case at each position does, and its answer is the largest of theirs; otherwise it raises the error of the first of these calls that fails. So the order and repetition of load cases and positions do not matter, a call for fewer of them answers too and with no more, and the answers for two lists give that for both together as their maximum. One load case is a list of one, a float position is a list of one, no load case means all those of the beam, and no position means those listed for the first load case; no load case or position at all is a ValueError. All this holds whatever the arithmetic rounds.", "quantifier": "all code check objects (with or without a beam, with any loads, sections and factors), all lists of load cases and positions, all arithmetics", "why_tests_cant": "lists of every length and all objects, including those for which calls fail; rounding must not break it", "anchors": ["beamdesign/codecheck/as4100/as4100.py: AS4100.tension_utilisation", "beamdesign/beam.py: Beam.get_loads, Beam.list_positions", "beamdesign/loadcase.py: LoadCase.get_load"]}
{"id": "C157", "title": "Sections and capacities at several positions are those at single positions put together", "statement": "Beam.list_positions, Beam.get_section and AS4100.get_as4100_section for a list of float positions answer iff they do for each position, and give the answers for the distinct positions, in ascending order, one after the other. The tension capacity (and its parts for yielding and fracture) at several positions is the smallest of those at each; if the call for all answers, each single one answers with no less, unless it finds no section between two elements; the design capacity is that at one of the positions. Order and repetition of the positions do not matter, and the capacity of the whole beam is at most that at any positions. All this holds whatever the arithmetic rounds.", "quantifier": "all beams and code check objects, all lists of float positions, all load cases, all arithmetics", "why_tests_cant": "lists of every length and all beams, including those for which calls fail; rounding must not break it", "anchors": ["beamdesign/beam.py: Beam.list_positions, Beam.get_section", "beamdesign/codecheck/as4100/as4100.py: AS4100.get_as4100_section, AS4100.Nt, AS4100.Nty, AS4100.Ntu, AS4100.tension_capacity"]}
{"id": "C158", "title": "The loads of a beam at several positions are those at single positions put together", "statement": "Beam.get_loads for a list of float positions answers iff it does for each position and the tables have the same number of columns; its rows are theirs, for the distinct positions in ascending order, one after the other. Order and repetition of the positions do not matter, and a call for some of the positions answers too, with some of the rows. get_tension behaves likewise: its rows are those of the single calls, and each single call answers with some of them, unless it finds no element between two others. This holds for any loads, including load cases without loads, and whatever the arithmetic rounds.", "quantifier": "all beams, load cases and components, all lists of float positions, all arithmetics", "why_tests_cant": "lists of every length and all beams, including those for which calls fail; rounding must not break it", "anchors": ["beamdesign/beam.py: Beam.get_loads, Beam.list_positions", "beamdesign/loadcase.py: LoadCase.get_load", "beamdesign/codecheck/codecheck.py: CodeCheck.get_tension"]}
{"id": "C159", "title": "A query by number of positions can be repeated with the positions it found", "statement": "If Beam.list_positions finds places for a number of positions, then asking again with the list of the positions found gives the same places; so Beam.get_section, AS4100.get_as4100_section, Beam.get_loads and get_tension for that number answer as they do for the list.", "quantifier": "all beams, numbers of positions and load cases, all arithmetics", "why_tests_cant": "all beams and numbers of positions, and all roundings of the sums that give the ends of the elements and the length of the beam", "anchors": ["beamdesign/beam.py: Beam.list_positions, Beam.get_section, Beam.get_loads, Beam.length", "beamdesign/codecheck/as4100/as4100.py: AS4100.get_as4100_section", "beamdesign/codecheck/codecheck.py: CodeCheck.get_tension"]}
