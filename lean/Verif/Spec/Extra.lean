import Verif.Spec.V01
import Verif.Spec.V04
/-!
# Specification: queue properties and experimenter formats (OpenFlow 1.0.1 section 5.2.2, OpenFlow 1.3.5 sections A.2.2, A.2.3.8
and A.4.4.16)
-/
namespace Pyof.Spec

namespace V01
def queuePropMinRate : Fmt := struct "01.QueuePropMinRate" [("prop_header", queuePropHeader), ("rate", u16), ("pad", pad 6)]
end V01

namespace V04
def queuePropExperimenter : Fmt := struct "04.QueuePropExperimenter"
  [("prop_header", queuePropHeader), ("experimenter", u32), ("pad", pad 4), ("data", rest)]
def queuePropMaxRate : Fmt := struct "04.QueuePropMaxRate" [("prop_header", queuePropHeader), ("rate", u16), ("pad", pad 6)]
def queuePropMinRate : Fmt := struct "04.QueuePropMinRate" [("prop_header", queuePropHeader), ("rate", u16), ("pad", pad 6)]
/-- The library's layout: the class is a 32-bit number of its own. -/
def oxmExperimenter : Fmt := struct "04.OxmExperimenterHeader"
  [("oxm_header", uint 4 (some [0, 1, 0x8000, 0xffff]) (some 0xffff)), ("experimenter", u32)]
def errorExperimenter : MsgFmt := plain "04.ErrorExperimenterMsg" 1
  [("error_type", uint 2 (some [0, 1, 2, 3, 4, 5, 6, 7, 8, 9, 10, 11, 12, 13, 0xffff]) (some 0xffff)), ("exp_type", u16),
   ("experimenter", u32), ("data", rest)]
end V04

end Pyof.Spec
