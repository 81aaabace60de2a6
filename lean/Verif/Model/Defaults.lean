import Verif.Model.AS4100

/-!
# Model of `AS4100.default_AS4100` with a configuration file (as4100.py 414-449)

Reading and parsing the file is not modelled: the model starts from the parsed TOML file.
-/

namespace BeamDesign

variable {K : Type} [Field K] [LinearOrder K]

/-- The keyword parameters of as4100.py 23-25 without defaults, as spelled there and in as4100.toml. -/
def as4100Params : List String := ["φ_steel", "αu", "kt"]

/-- as4100.py 422 `cls(beam=beam, section=section, **defaults)` with 23-25: a name that is not a parameter, a name given twice
(`beam`, `section`) and a missing name all raise `TypeError`.  Values that are not numbers are stored unchecked by the code;
they are outside the model. -/
def AS4100.ofDefaults (d : List (String × TVal K)) (beam : Option (Beam K (Sect K))) (sect : Option (Sect K)) :
    Py (AS4100 K) :=
  if d.any fun kv => decide (kv.1 ∉ as4100Params) then .error .typeError
  else
    match d.lookup "φ_steel", d.lookup "αu", d.lookup "kt" with
    | some (.num phi), some (.num au), some (.num kt) => AS4100.new phi au kt beam sect
    | some _, some _, some _ => .error .outsideModel
    | _, _, _ => .error .typeError

/-- as4100.py 414-422 `default_AS4100` on the parsed file: the table `defaults` (`KeyError` without it; `TypeError` if it is not
a table). -/
def AS4100.defaultFrom (cfg : MatFile K) (beam : Option (Beam K (Sect K))) (sect : Option (Sect K)) : Py (AS4100 K) :=
  match cfg.lookup "defaults" with
  | none => .error .keyError
  | some none => .error .typeError
  | some (some d) => AS4100.ofDefaults d beam sect

/-- as4100.toml, parsed. -/
def shippedDefaults : MatFile K :=
  [("defaults", some [("φ_steel", .num (90 / 100)), ("kt", .num 1), ("αu", .num (85 / 100))])]

end BeamDesign
