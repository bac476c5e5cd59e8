import Verif.Model.DefaultCdf1
import Verif.Model.DefaultCdf2
import Verif.Model.DefaultCdf3
import Verif.Model.DefaultCdf4

/-! Generated by tools/gen_cdf.py: all default tables (`default_cdf`, cdf.rs 108–4371). -/

namespace Av1.Default

def families : List Family := part1 ++ part2 ++ part3 ++ part4

end Av1.Default
