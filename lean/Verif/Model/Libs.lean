import Verif.Model.V01
import Verif.Model.V04
/-!
# The two protocol versions together (`pyof/utils.py`)
-/
namespace Pyof

/-- PYOF_VERSION_LIBS (pyof/utils.py:11-12). -/
def libs : List Lib := [V01.lib, V04.lib]

/-- `MAXID = UBINT32_MAX_VALUE` (base.py:27, constants.py:6): the largest random transaction id. -/
def maxId : Nat := 4294967295

end Pyof
