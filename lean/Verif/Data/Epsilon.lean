import Verif.Data.Tok

set_option autoImplicit false

/-! Generated by `tools/tables.py` from `Tables/epsilon.table` in the repository. -/

namespace QED
namespace Shipped

/-- The numbers of `epsilon.table`. -/
def epsilon : List Tok := [
  f 16 100000000000000, f 16 200000000000000, f 16 300000000000000, f 16 400000000000000,
  f 16 500000000000000, f 16 600000000000000, f 16 700000000000000, f 16 800000000000000,
  f 16 900000000000000, f 16 1000000000000000, f 16 1100000000000000, f 16 1200000000000000,
  f 16 1300000000000000, f 16 1400000000000000, f 16 1500000000000000, f 16 1600000000000000,
  f 16 1700000000000000, f 16 1800000000000000, f 16 1900000000000000, f 16 2000000000000000,
  f 16 2100000000000000, f 16 2200000000000001, f 16 2300000000000001, f 16 2400000000000001,
  f 16 2500000000000001, f 16 2600000000000001, f 16 2700000000000001, f 16 2800000000000001,
  f 16 2900000000000001, f 16 3000000000000001, f 16 3100000000000001, f 16 3200000000000001,
  f 16 3300000000000001, f 16 3400000000000001, f 16 3500000000000001, f 16 3600000000000002,
  f 16 3700000000000002, f 16 3800000000000002, f 16 3900000000000002, f 16 4000000000000002,
  f 16 4100000000000002, f 16 4200000000000002, f 16 4300000000000002, f 16 4400000000000002,
  f 16 4500000000000002, f 16 4600000000000002, f 16 4700000000000003, f 16 4800000000000003,
  f 16 4900000000000003, f 16 5000000000000002, f 16 5100000000000002, f 16 5200000000000002,
  f 16 5300000000000002, f 16 5400000000000003, f 16 5500000000000003, f 16 5600000000000003,
  f 16 5700000000000003, f 16 5800000000000003, f 16 5900000000000003, f 16 6000000000000003,
  f 16 6100000000000003, f 16 6200000000000003, f 16 6300000000000003, f 16 6400000000000003,
  f 16 6500000000000004, f 16 6600000000000004, f 16 6700000000000004, f 16 6800000000000004,
  f 16 6900000000000004, f 16 7000000000000004, f 16 7100000000000004, f 16 7200000000000004,
  f 16 7300000000000004, f 16 7400000000000004, f 16 7500000000000004, f 16 7600000000000005,
  f 16 7700000000000005, f 16 7800000000000005, f 16 7900000000000005, f 16 8000000000000005,
  f 16 8100000000000005, f 16 8200000000000005, f 16 8300000000000005, f 16 8400000000000005,
  f 16 8500000000000005, f 16 8600000000000005, f 16 8700000000000006, f 16 8800000000000006,
  f 16 8900000000000006, f 16 9000000000000006, f 16 9100000000000006, f 16 9200000000000006,
  f 16 9300000000000006, f 16 9400000000000006, f 16 9500000000000006, f 16 9600000000000006,
  f 16 9700000000000006, f 16 9800000000000006, f 16 9900000000000007, f 16 10000000000000007]

end Shipped
end QED
