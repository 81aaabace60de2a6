"""
Writes lean/Verif/Conformance/S7.lean, S5.lean, S6.lean, S6Member.lean and Sheets.lean: the tables of inputs and expected
results in /repo/tests/test_AS4100_{5,6,7}.py and in the spreadsheet that other tests read, and the model's functions
applied to them.  The tests are read as text, not run.
"""

import ast
import re
import sys
import zipfile
from decimal import Decimal
from xml.etree import ElementTree

TESTS = "/repo/tests/"
OUT = "/verif/lean/Verif/Conformance/"


def tables(name):
    """The tuples assigned in each test method, in order: {method: [(line, {variable: values})]}, one dict per loop."""
    tree = ast.parse(open(TESTS + name).read())
    res = {}
    for cls in tree.body:
        if not isinstance(cls, ast.ClassDef):
            continue
        for fn in cls.body:
            if not isinstance(fn, ast.FunctionDef):
                continue
            groups, cur = [], {}
            for st in fn.body:
                if isinstance(st, ast.Assign) and isinstance(st.value, (ast.Tuple, ast.List)):
                    cur[st.targets[0].id] = ast.literal_eval(st.value)
                if isinstance(st, ast.For):
                    groups.append((st.lineno, dict(cur)))
            res[fn.name] = groups
    return res


def scaled(values):
    """A power of ten that makes all values integers, and the integers."""
    ds = [Decimal(repr(v)) for v in values]
    k = max(0, max(-d.normalize().as_tuple().exponent for d in ds))
    ints = [int(d.scaleb(k)) for d in ds]
    assert all(Decimal(n).scaleb(-k) == d for n, d in zip(ints, ds))
    return k, ints


def block(name, line, test, cols, data, params, body, doc=""):
    """One definition with the table and one example."""
    n = len(data[cols[0]])
    assert all(len(data[c]) == n for c in cols), (test, [len(data[c]) for c in cols])
    sc = [scaled(data[c]) for c in cols]
    rows = ["[" + ", ".join(str(s[1][i]) for s in sc) + "]" for i in range(n)]
    out = f"/-- {test}, line {line}{doc}: columns {', '.join(cols)} -/\n"
    out += f"def {name} : List (List ℚ) := table [{', '.join(str(s[0]) for s in sc)}] [\n"
    line_, lines = "  ", []
    for i, r in enumerate(rows):
        piece = r + ("," if i < n - 1 else "]")
        if len(line_) + len(piece) + 1 > 150:
            lines.append(line_.rstrip())
            line_ = "  "
        line_ += piece + " "
    lines.append(line_.rstrip())
    out += "\n".join(lines) + "\n\n"
    out += f"example : {name}.all (fun row => match row with\n  | [{', '.join(params)}] => {body}\n  | _ => false) = true := by decide +kernel\n\n"
    return out


def header(imports, title):
    return "".join(f"import {i}\n" for i in imports) + f"\n/-!\n# {title}\n\nWritten by tools/conformance.py.\n-/\n\nnamespace BeamDesign.Conformance\n\n"


FOOT = "end BeamDesign.Conformance\n"


def s7():
    t = tables("test_AS4100_7.py")
    o = header(["Verif.Conformance.Tables", "Verif.Model.S7"], "`tests/test_AS4100_7.py` run on the model")

    def one(fn, name, cols, params, body):
        (line, data), = t[fn]
        return block(name, line, fn, cols, data, params, body)

    o += one("test_s_7_2_N_t_yield", "tNty", ["Ag", "fy", "Nt_yield"], ["ag", "fy", "n"], "within 10000 (S7.NtYield rt ag fy) n")
    o += one("test_s_7_2_Ag", "tAg", ["N", "fy", "Ag"], ["n", "fy", "ag"], "result 10000 (S7.Ag rt n fy) ag")
    o += one("test_s_7_2_N_t_ultimate", "tNtu", ["An", "kt", "fu", "UU", "Nt_ultimate"], ["an", "kt", "fu", "u", "n"],
             "within 10000 (S7.NtUltimate rt an fu kt u) n")
    o += one("test_s7_2_An", "tAn", ["N", "kt", "fu", "UltUncert", "An"], ["n", "kt", "fu", "u", "an"], "result 10000 (S7.An rt n fu kt u) an")
    o += one("test_s7_5_a_min_thickness", "tMin", ["a_e_perp", "sft", "t_min"], ["ae", "sf", "tm"], "within 10000 (S7.minThickness rt ae sf) tm")
    o += one("test_s7_5_b_A_beyond", "tBeyond", ["Areqd", "sf", "Abeyond"], ["a", "sf", "b"], "within 10000 (S7.ABeyond rt a sf) b")
    o += one("test_s7_5_c_A_perp", "tPerp", ["Areqd", "sf", "Aperp"], ["a", "sf", "b"], "within 10000 (S7.APerp rt a sf) b")
    o += one("test_s7_1_Tension_Capacity", "tCap", ["Ag", "An", "kt", "fy", "fu", "UU", "φ", "Nty", "φNty", "Ntu", "φNtu", "Nt", "φNt"],
             ["ag", "an", "kt", "fy", "fu", "u", "phi", "a", "b", "c", "e", "g", "h"],
             "\n    let r := S7.Nt rt ag an fy fu kt phi u\n    within 10000 r.Nty a && within 10000 r.phiNty b && within 10000 r.Ntu c && within 10000 r.phiNtu e &&\n      within 10000 r.N g && within 10000 r.phiN h")
    o += one("test_s7_1_Area_Reqd", "tAreas", ["F", "kt", "fy", "fu", "UU", "φ", "Ag", "An", "A", "φAg", "φAn", "φA"],
             ["n", "kt", "fy", "fu", "u", "phi", "a", "b", "c", "e", "g", "h"],
             "passes (S7.AReqd rt n fy fu kt phi u) fun r =>\n    within 10000 r.Ag a && within 10000 r.An b && within 10000 r.A c && within 10000 r.phiAg e &&\n      within 10000 r.phiAn g && within 10000 r.phiA h")
    open(OUT + "S7.lean", "w").write(o + FOOT)


def s5():
    t = tables("test_AS4100_5.py")
    o = header(["Verif.Conformance.Tables"], "`tests/test_AS4100_5.py` run on the model, in double precision")

    def one(fn, name, cols, params, body, doc=""):
        (line, data), = t[fn]
        return block(name, line, fn, cols, data, params, body, doc)

    o += one("test_s5_2_M_s", "tMs", ["Zex", "Zey", "fy", "Msx", "Msy"], ["zx", "zy", "fy", "mx", "my"],
             "within 10000 (S5R.Ms ar fy zx) mx && within 10000 (S5R.Ms ar fy zy) my")
    o += one("test_s5_6_1_M_o", "tMo", ["le", "Iy", "J", "Iw", "E", "G", "Mo0"], ["le", "iy", "j", "iw", "e", "g", "m"],
             "result 10000 (S5R.Mo ar le iy j iw 0 e g) m")
    o += one("test_s5_6_1_M_o_β_x_rand", "tMoBeta", ["le", "Iy", "J", "Iw", "βx", "E", "G", "Mo"], ["le", "iy", "j", "iw", "b", "e", "g", "m"],
             "result 10000 (S5R.Mo ar le iy j iw b e g) m")
    o += one("test_s5_6_1_α_m", "tAlphaM", ["Mmax", "M2", "M3", "M4", "αm_max", "αm"], ["m", "m2", "m3", "m4", "cap", "a"],
             "result 10000 (S5R.alphaM ar m m2 m3 m4 cap) a")
    o += one("test_s5_6_α_s", "tAlphaS", ["Mo", "Ms", "αs"], ["mo", "ms", "a"], "result 10000 (S5R.alphaS ar ms mo) a")
    (line, data), = t["test_s5_6_3_k_t"]
    codes = ["FF", "FP", "FL", "FU", "PP", "PL", "PU", "LL"]
    data["code"] = [codes.index(r) for r in data["Restraint"]]
    o += block("tKt", line, "test_s5_6_3_k_t", ["code", "d1", "l", "tf", "tw", "nw", "kt"], data, ["c", "d1", "l", "tf", "tw", "nw", "k"],
               "result 10000 (S5R.kt ar d1 l tf tw nw (restraint c)) k", "; restraints are numbered")
    o += one("test_s5_6_3_l_e", "tLe", ["l", "kt", "kl", "kr", "le"], ["l", "kt", "kl", "kr", "le"], "within 10000 (S5R.le ar kt kl kr l) le")
    o += one("test_s5_6_1_Mb", "tMb", ["αs", "αm", "Ms", "Mb"], ["s", "m", "ms", "mb"], "within 10000 (S5R.Mb ar ms m s) mb")
    open(OUT + "S5.lean", "w").write(o + FOOT)


def axis(a):
    """x, y, both, point, none"""
    return {("x",): 1, ("y",): 2, ("x", "y"): 3, ("point",): 4, (): 0}[tuple(a)]


def s6():
    t = tables("test_AS4100_6.py")
    o = header(["Verif.Conformance.Tables"], "`tests/test_AS4100_6.py` run on the model, in double precision: all but the member capacity")
    D = "100000"

    def many(fn, k, name, cols, params, body, doc=""):
        line, data = t[fn][k]
        return block(name, line, fn, cols, data, params, body, doc)

    def one(fn, name, cols, params, body, doc=""):
        return many(fn, 0, name, cols, params, body, doc)

    o += one("test_s6_2_A_e", "tAe", ["An", "kf", "Ae"], ["a", "k", "ae"], f"within {D} (S6R.Ae ar a k) ae")
    o += one("test_s6_2_N_s", "tNs", ["An", "kf", "fy", "Ns"], ["a", "k", "fy", "n"], f"within {D} (S6R.Ns ar (S6R.Ae ar a k) fy) n")
    o += one("test_N_euler", "tEuler", ["E", "Ix", "lex", "Iy", "ley", "Neuler_x", "Neuler_y"], ["e", "ix", "lx", "iy", "ly", "nx", "ny"],
             f"result {D} (S6R.NEuler ar e ix lx) nx && result {D} (S6R.NEuler ar e iy ly) ny")
    o += one("test_f_euler", "tFEuler", ["E", "lex", "rx", "ley", "ry", "feuler_x", "feuler_y"], ["e", "lx", "rx", "ly", "ry", "fx", "fy"],
             f"result {D} (S6R.fEuler ar e lx rx) fx && result {D} (S6R.fEuler ar e ly ry) fy")
    o += one("test_r_ol", "tRol", ["rx", "ry", "xo", "yo", "rol"], ["rx", "ry", "xo", "yo", "r"], f"result {D} (S6R.rol ar rx ry xo yo) r")
    tor = ["An", "lez", "rx", "ry", "xo", "yo", "J", "Iw", "E", "G"]
    ptor = ["a", "lz", "rx", "ry", "xo", "yo", "j", "iw", "e", "g"]
    o += one("test_f_euler_torsion", "tFTorsion", tor + ["Foz"], ptor + ["x"], f"result {D} (S6R.fEulerTorsion ar a lz rx ry xo yo j iw e g) x")
    o += many("test_s6_3_3_λ_n", 0, "tLambdaX", ["kf", "lex", "rx", "fy", "fref", "λnx"], ["k", "l", "r", "fy", "fr", "x"],
              f"result {D} (S6R.lambdaN ar k l r fy fr) x")
    o += many("test_s6_3_3_λ_n", 1, "tLambdaY", ["kf", "ley", "ry", "fy", "fref", "λny"], ["k", "l", "r", "fy", "fr", "x"],
              f"result {D} (S6R.lambdaN ar k l r fy fr) x")
    o += one("test_s6_3_3_α_c", "tAlphaC", ["λnx", "λny", "αb", "αcx", "αcy"], ["lx", "ly", "b", "x", "y"],
             f"result {D} ((S6R.alphaC ar lx b).map (·.alphaC)) x && result {D} ((S6R.alphaC ar ly b).map (·.alphaC)) y")
    o += one("test_s6_3_3_N_c", "tNcFlex", ["An", "kf", "lex", "rx", "ley", "ry", "fy", "fref", "αb", "Ncx", "Ncy"],
             ["a", "k", "lx", "rx", "ly", "ry", "fy", "fr", "b", "x", "y"],
             f"result {D} ((S6R.NcFlexural ar a k lx rx fy fr b).map (·.1)) x && result {D} ((S6R.NcFlexural ar a k ly ry fy fr b).map (·.1)) y")
    o += one("test_f_oxz", "tFoxz", ["An", "lex", "lez", "rx", "ry", "xo", "yo", "J", "Iw", "E", "G", "expected"],
             ["a", "lx", "lz", "rx", "ry", "xo", "yo", "j", "iw", "e", "g", "x"],
             f"stress {D} (S6R.foxz ar a lx lz rx ry xo yo j iw e g) x")
    o += one("test_f_oc_double_symmetric", "tDouble", ["An", "lex", "lez", "rx", "ry", "xo", "yo", "J", "Iw", "E", "G", "expected"],
             ["a", "lx", "lz", "rx", "ry", "xo", "yo", "j", "iw", "e", "g", "x"],
             f"result {D} (S6R.focDouble ar ⟨a, lx, 0, lz, rx, ry, xo, yo, j, iw, e, g⟩) x")
    line, data = t["test_f_oc_single_symmetric"][0]
    data["axis"] = [axis(a) for a in data["Axis"]]
    o += block("tSingle", line, "test_f_oc_single_symmetric",
               ["axis", "An", "lex", "ley", "lez", "rx", "ry", "xo", "yo", "J", "Iw", "E", "G", "expected"], data,
               ["s", "a", "lx", "ly", "lz", "rx", "ry", "xo", "yo", "j", "iw", "e", "g", "x"],
               f"decide (s = 1 ∨ s = 2) &&\n    stress {D} (S6R.focSingle ar ⟨a, lx, ly, lz, rx, ry, xo, yo, j, iw, e, g⟩ (decide (s = 1))) x",
               "; the axis is 1 for x, 2 for y")
    o += one("test_f_oc_point_symmetric", "tPoint", tor + ["expected"], ptor + ["x"],
             f"result {D} (S6R.focPoint ar ⟨a, 0, 0, lz, rx, ry, xo, yo, j, iw, e, g⟩) x")
    o += one("test_f_oc_unsymmetric", "tUnsym",
             ["An", "lex", "ley", "lez", "rx", "ry", "xo", "yo", "J", "Iw", "E", "G", "aexp", "bexp", "cexp", "dexp", "focexp"],
             ["a", "lx", "ly", "lz", "rx", "ry", "xo", "yo", "j", "iw", "e", "g", "ca", "cb", "cc", "cd", "x"],
             f"passes (S6R.cubic ar ⟨a, lx, ly, lz, rx, ry, xo, yo, j, iw, e, g⟩) fun q =>\n    within {D} q.a ca && within {D} q.b cb && within {D} q.c cc && within {D} q.d cd && within {D} (smallestRoot q) x")
    open(OUT + "S6.lean", "w").write(o + FOOT)

    o = header(["Verif.Conformance.Tables"], "`tests/test_AS4100_6.py` run on the model, in double precision: the member capacity")
    for k, nm in enumerate(["tTorsionDouble", "tTorsionSingle", "tTorsionPoint", "tTorsionNone"]):
        line, data = t["test_s6_3_3_N_c_torsion"][k]
        data["axis"] = [axis(a) for a in data["Axis"]]
        o += block(nm, line, "test_s6_3_3_N_c_torsion",
                   ["axis", "An", "kf", "lex", "ley", "lez", "rx", "ry", "xo", "yo", "J", "Iw", "fy", "E", "G", "Ncexp"], data,
                   ["s", "a", "k", "lx", "ly", "lz", "rx", "ry", "xo", "yo", "j", "iw", "fy", "e", "g", "x"],
                   f"result {D} (torsion s ⟨a, lx, ly, lz, rx, ry, xo, yo, j, iw, e, g⟩ k fy) x",
                   "; the axes are 0 for none, 1 for x, 2 for y, 3 for both, 4 for a point")
    line, data = t["test_s6_1_1_Nc"][0]
    data["axis"] = [axis(a) for a in data["Axis"]]
    data["buckling"] = [int(b) for b in data["calc_buckle"]]
    data["torsion"] = [int(b) for b in data["calc_torsion"]]
    o += block("tMember", line, "test_s6_1_1_Nc",
               ["axis", "An", "kf", "l", "kex", "key", "kez", "rx", "ry", "xo", "yo", "J", "Iw", "fy", "E", "G", "fref", "αb", "buckling", "torsion",
                "φNs", "φNcx", "φNcy", "φNcz", "φNc"], data,
               ["s", "a", "k", "l", "kx", "ky", "kz", "rx", "ry", "xo", "yo", "j", "iw", "fy", "e", "g", "fr", "ab", "cb", "ct", "ns", "ncx", "ncy", "ncz", "nc"],
               "memberGives s a k l kx ky kz rx ry xo yo j iw fy e g fr ab cb ct ns ncx ncy ncz nc",
               "; the axes are numbered as above, the switches are 0 or 1")
    open(OUT + "S6Member.lean", "w").write(o + FOOT)


NS = "{http://schemas.openxmlformats.org/spreadsheetml/2006/main}"


def sheet(number):
    """The rows of a sheet as dicts, with the names in the second row for keys, from column B on."""
    z = zipfile.ZipFile(TESTS + "Excel/AS4100 Verification.xlsx")
    strings = ["".join(t.text or "" for t in si.iter(NS + "t")) for si in ElementTree.fromstring(z.read("xl/sharedStrings.xml"))]
    rows = []
    for r in ElementTree.fromstring(z.read(f"xl/worksheets/sheet{number}.xml")).iter(NS + "row"):
        row = {}
        for c in r.iter(NS + "c"):
            v = c.find(NS + "v")
            if v is not None:
                col = re.match("[A-Z]+", c.get("r")).group()
                row[col] = strings[int(v.text)] if c.get("t") == "s" else v.text if c.get("t") else float(v.text)
        rows.append((int(r.get("r")), row))
    head = dict(rows)[2]
    out = []
    for n, row in rows:
        if n > 2 and "B" in row:
            d = {}
            for col, key in head.items():
                if key not in d:
                    d[key] = row.get(col)
            out.append(d)
    return out


def sheets():
    o = header(["Verif.Conformance.Tables", "Verif.Model.S7"],
               "The tests that read `tests/Excel/AS4100 Verification.xlsx` run on the model\n\n"
               "`tests/test_AS4100_5_Shear.py` and `test_AS4100_s7_Nt` of `tests/test_AS4100.py`.")
    boxes, isec, pfcs, chss, vma = (sheet(n) for n in (1, 2, 3, 4, 5))

    def one(name, test, rows, cols, params, body):
        data = {c: [r[c] for r in rows] for c in cols}
        missing = [i for i in range(len(rows)) if any(data[c][i] is None for c in cols)]
        assert not missing, (name, missing)
        return block(name, len(rows), test, cols, data, params, body).replace(
            f", line {len(rows)}", f", {len(rows)} rows")

    web = isec + pfcs + boxes
    o += one("tVw", "test_s5_11_4_V_w_Generic", web, ["Aw", "fy_web", "Vyield"], ["a", "fy", "v"], "near v (S5ShearR.VwGeneric ar a fy (ar.lit (6 / 10)))")
    o += one("tVwCHS", "test_s5_11_4_V_w_CHS", chss, ["Ag", "fy", "Vyield"], ["a", "fy", "v"],
             "near v (S5ShearR.VwCHS ar a fy (ar.lit (6 / 10)) (ar.lit (6 / 10)))")
    o += one("tAlphaV", "test_s5_11_5_α_v", web, ["d1", "tw", "fy_web", "αv"], ["d1", "tw", "fy", "a"],
             "passes (S5ShearR.alphaV ar d1 tw fy 82 250000000) (near a ·)")
    o += one("tAlphaVma", "test_s5_11_3_α_vma", vma, ["fvm", "fva", "αvma"], ["m", "v", "a"], "passes (S5ShearR.alphaVma ar m v) (near a ·)")
    o += one("tWeld", "test_s5_11_4_V_w_Weld", [r for r in isec if r["Fabrication Type"] == "Welded"], ["vw", "Qflange", "Ix", "Vweld"],
             ["vw", "q", "ix", "v"], "passes (S5ShearR.VwWeld ar [vw] q ix) (near v ·)")
    o += one("tInterface", "test_s5_11_4_V_w_Interface", isec + pfcs, ["tw", "fy_web", "fy_flange", "Qflange", "Ix", "Vinterface"],
             ["tw", "fw", "ff", "q", "ix", "v"], "passes (S5ShearR.VwInterface ar tw (min fw ff) q ix (ar.lit (6 / 10))) (near v ·)")
    o += one("tInterface2", "test_s5_11_4_V_w_Interface_2", boxes, ["tw", "fy_web", "fy_flange", "Qflange", "Ix", "Vinterface"],
             ["tw", "fw", "ff", "q", "ix", "v"], "passes (S5ShearR.VwInterface ar (ar.mul tw 2) (min ff fw) q ix (ar.lit (6 / 10))) (near v ·)")
    for nm, rows in (("tNtIs", isec), ("tNtOthers", pfcs + chss + boxes)):
        o += one(nm, "test_AS4100_s7_Nt", rows, ["Ag", "An", "fy", "fu", "kt", "αu", "Nty", "Ntu", "Nt"],
                 ["ag", "an", "fy", "fu", "kt", "u", "y", "t", "n"],
                 "near (S7.NtYield rt ag fy) y && near (S7.NtUltimate rt an fu kt u) t && near (S7.Nt rt ag an fy fu kt 1 u).N n")
    open(OUT + "Sheets.lean", "w").write(o + FOOT)


if __name__ == "__main__":
    for f in sys.argv[1:] or ["s7", "s5", "s6", "sheets"]:
        globals()[f]()
