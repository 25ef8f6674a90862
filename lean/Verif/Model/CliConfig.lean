import Verif.Model.Cli
import Verif.Model.Connect
/-!
# `discover config` (cli/discover.py)
-/

namespace Kasa.Cli
open Config

/-- The options which `discover config` prints for a device it managed to connect to (cli/discover.py:276-284): the values of
`--device-family` and `--encrypt-type`, and `--https` or `--no-https`. -/
def printed (p : ConnParams) : String × String × Bool := (p.family.value, p.encryption.value, p.https)

/-- The options of a run to which these were added. -/
def withPrinted (o : Options) (x : String × String × Bool) : Options :=
  { o with family := x.1, encryptType := some x.2.1, https := x.2.2 }

end Kasa.Cli
