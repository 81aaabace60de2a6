import Verif.Model.Material
import Mathlib.Algebra.Order.Field.Rat

/-!
# The material table shipped with the library

`beamdesign/materials/material.toml`, all entries in file order.  Decimals are exact here; the parser gives
the nearest doubles.
-/

namespace BeamDesign

/-- `beamdesign/materials/material.toml:15-99` -/
def shippedFile : MatFile ℚ := [
  ("AS3678-2016-250", some [
      ("type", .str "steel"),
      ("name", .str "250"),
      ("standard", .str "AS3678-2016"),
      ("E", .num 200000000000),
      ("strengths", .table [
        [1/125, 3/250, 1/50, 1/20, 2/25, 3/20, 1/5],
        [280000000, 260000000, 250000000, 250000000, 240000000, 230000000, 220000000],
        [410000000, 410000000, 410000000, 410000000, 410000000, 410000000, 400000000]])]),
  ("AS3678-2016-300", some [
      ("type", .str "steel"),
      ("name", .str "300"),
      ("standard", .str "AS3678-2016"),
      ("E", .num 200000000000),
      ("strengths", .table [
        [1/125, 3/250, 1/50, 1/20, 2/25, 3/20, 1/5],
        [320000000, 310000000, 300000000, 280000000, 270000000, 260000000, 250000000],
        [430000000, 430000000, 430000000, 430000000, 430000000, 430000000, 420000000]])]),
  ("AS3678-2016-350", some [
      ("type", .str "steel"),
      ("name", .str "350"),
      ("standard", .str "AS3678-2016"),
      ("E", .num 200000000000),
      ("strengths", .table [
        [1/125, 3/250, 1/50, 4/125, 1/20, 2/25, 3/20, 1/5],
        [360000000, 360000000, 350000000, 340000000, 340000000, 340000000, 330000000, 320000000],
        [450000000, 450000000, 450000000, 450000000, 450000000, 450000000, 450000000, 450000000]])]),
  ("AS3678-2016-400", some [
      ("type", .str "steel"),
      ("name", .str "400"),
      ("standard", .str "AS3678-2016"),
      ("E", .num 200000000000),
      ("strengths", .table [
        [1/125, 3/250, 1/50, 4/125, 1/20, 2/25],
        [400000000, 400000000, 380000000, 360000000, 360000000, 360000000],
        [450000000, 450000000, 450000000, 450000000, 450000000, 450000000]])]),
  ("AS3679.1-1996-250", some [
      ("type", .str "steel"),
      ("name", .str "250"),
      ("standard", .str "AS3679.1-1996"),
      ("E", .num 200000000000),
      ("strengths", .table [
        [11/1000, 17/1000, 1/25, 1/5],
        [260000000, 250000000, 250000000, 230000000],
        [410000000, 410000000, 410000000, 410000000]])]),
  ("AS3679.1-2016-300", some [
      ("type", .str "steel"),
      ("name", .str "300"),
      ("standard", .str "AS3679.1-2016"),
      ("E", .num 200000000000),
      ("strengths", .table [
        [11/1000, 17/1000, 1/25, 1/5],
        [320000000, 300000000, 280000000, 280000000],
        [440000000, 440000000, 440000000, 440000000]])]),
  ("AS3679.1-2016-350", some [
      ("type", .str "steel"),
      ("name", .str "350"),
      ("standard", .str "AS3679.1-2016"),
      ("E", .num 200000000000),
      ("strengths", .table [
        [11/1000, 17/1000, 1/25, 1/5],
        [360000000, 340000000, 340000000, 330000000],
        [480000000, 480000000, 480000000, 480000000]])]),
  ("test_propertyless", some [
      ("type", .str "steel"),
      ("name", .str "test"),
      ("standard", .str "test")])]

end BeamDesign
