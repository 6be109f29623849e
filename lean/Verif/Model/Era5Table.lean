import Verif.Model.Num

/-!
# The ERA5 model level table

`/repo/src/wam2layers/preprocessing/tableERA5model_to_pressure.csv`, columns `a [Pa]` and `b`
(138 rows, `n = 0 ... 137`), read by `load_era5_ab` (`/repo/src/wam2layers/preprocessing/era5.py:145-151`).
The numbers of the file are exact decimals; they are stored here as integers.
-/

namespace Wam

/-- column `a [Pa]` in units of 10^-6 Pa, tableERA5model_to_pressure.csv:2-139 -/
def era5AInt : List ℤ :=
  [
    0, 2000365, 3102241, 4666084, 6827977, 9746966, 13605424, 18608931, 24985718, 32985710,
    42879242, 54955463, 69520576, 86895882, 107415741, 131425507, 159279404, 191338562,
    227968948, 269539581, 316420746, 368982361, 427592499, 492616028, 564413452, 643339905,
    729744141, 823967834, 926344910, 1037201172, 1156853638, 1285610352, 1423770142,
    1571622925, 1729448975, 1897519287, 2076095947, 2265431641, 2465770508, 2677348145,
    2900391357, 3135119385, 3381743652, 3640468262, 3911490479, 4194930664, 4490817383,
    4799149414, 5119895020, 5452990723, 5798344727, 6156074219, 6526946777, 6911870605,
    7311869141, 7727412109, 8159354004, 8608525391, 9076400391, 9562682617, 10065978516,
    10584631836, 11116662109, 11660067383, 12211547852, 12766873047, 13324668945, 13881331055,
    14432139648, 14975615234, 15508256836, 16026115234, 16527322266, 17008789063, 17467613281,
    17901621094, 18308433594, 18685718750, 19031289063, 19343511719, 19620042969, 19859390625,
    20059931641, 20219664063, 20337863281, 20412308594, 20442078125, 20425718750, 20361816406,
    20249511719, 20087085938, 19874025391, 19608572266, 19290226563, 18917460938, 18489707031,
    18006925781, 17471839844, 16888687500, 16262046875, 15596695313, 14898453125, 14173324219,
    13427769531, 12668257813, 11901339844, 11133304688, 10370175781, 9617515625, 8880453125,
    8163375000, 7470343750, 6804421875, 6168531250, 5564382813, 4993796875, 4457375000,
    3955960938, 3489234375, 3057265625, 2659140625, 2294242188, 1961500000, 1659476563,
    1387546875, 1143250000, 926507813, 734992188, 568062500, 424414063, 302476563, 202484375,
    122101563, 62781250, 22835938, 3757813, 0, 0]

/-- column `b` in units of 10^-6, tableERA5model_to_pressure.csv:2-139 -/
def era5BInt : List ℤ :=
  [
    0, 0, 0, 0, 0, 0, 0, 0, 0, 0, 0, 0, 0, 0, 0, 0, 0, 0, 0, 0, 0, 0, 0, 0, 0, 0, 0, 0, 0, 0,
    0, 0, 0, 0, 0, 0, 0, 0, 0, 0, 0, 0, 0, 0, 0, 0, 0, 0, 0, 0, 0, 0, 0, 0, 0, 7, 24, 59, 112,
    199, 340, 562, 890, 1353, 1992, 2857, 3971, 5378, 7133, 9261, 11806, 14816, 18318, 22355,
    26964, 32176, 38026, 44548, 51773, 59728, 68448, 77958, 88286, 99462, 111505, 124448,
    138313, 153125, 168910, 185689, 203491, 222333, 242244, 263242, 285354, 308598, 332939,
    358254, 384363, 411125, 438391, 466003, 493800, 521619, 549301, 576692, 603648, 630036,
    655736, 680643, 704669, 727739, 749797, 770798, 790717, 809536, 827256, 843881, 859432,
    873929, 887408, 899900, 911448, 922096, 931881, 940860, 949064, 956550, 963352, 969513,
    975078, 980072, 984542, 988500, 991984, 995003, 997630, 1000000]

/-- `a` of `load_era5_ab`, era5.py:149 -/
def era5A (α : Type) [NpOps α] : List α := era5AInt.map fun n => NpOps.ofRat (mkRat n 1000000)

/-- `b` of `load_era5_ab`, era5.py:150 -/
def era5B (α : Type) [NpOps α] : List α := era5BInt.map fun n => NpOps.ofRat (mkRat n 1000000)

end Wam
