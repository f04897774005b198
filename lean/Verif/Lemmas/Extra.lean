import Verif.Model.Extra
import Verif.Spec.Extra
import Verif.Lemmas.Libs
namespace Pyof
open Spec

theorem enc_uint_enum {w ref ms} {n : Nat} : Enc (ubint w ref (.enum n)) (Spec.uint w ms (some n)) :=
  ⟨(enc_uint w ref (some n) ms).pack, (enc_uint w ref (some n) ms).size, (enc_uint w ref (some n) ms).usize⟩
macro_rules | `(tactic| enc1) => `(tactic| exact enc_uint_enum)

/-- `pyof.utils.unpack` on a well-framed packet whose type is in the table. -/
theorem pyUnpack_class {l : Lib} {m : MsgCls} {code x : Nat} {body : Bytes} (hv : libs.find? (fun k => k.ver == l.ver) = some l)
    (h1 : 1 ≤ l.ver) (h2 : l.ver < 128) (hc : code < 256) (hm : code ∈ l.types) (hf : l.find code = some m)
    (hb : 8 + body.length < 65536) (hx : x < 4294967296) :
    pyUnpack libs (.bytes (packet l.ver code x body)) = rewrap (match m.unpack body with
      | .error e => .error e
      | .ok vs => .ok (.obj m.name (.obj (hdrName m.ver) [.ub 1 (.int m.ver), .enum m.code,
          .ub 2 (.int (8 + body.length : Nat)), .ub 4 (.int x)] :: vs))) := by
  simp only [pyUnpack, packet_valid (code := code) (x := x) h1 h2 hb]
  rw [packet_head]
  have hvv : (UInt8.ofNat l.ver).toNat = l.ver := by simp; omega
  simp only [hvv, hv]
  rw [← packet_head]
  simp only [unpackMessage, take8_packet, drop8_packet,
    header_unpack (lver := l.ver) (show l.ver < 256 by omega) hc hb hx hm, Int.toNat_natCast, hf]
  cases m.unpack body <;> rfl

namespace V01
theorem impl_queuePropMinRate : Impl false queuePropMinRateFields
    [("prop_header", Spec.V01.queuePropHeader), ("rate", Spec.V01.u16), ("pad", pad 6)] := by
  unfold queuePropMinRateFields
  refine .cons (impl_queueProp.enc_struct _ _) (impl_queueProp.dec_struct _ _ nonEmpty_queueProp) ?_
  impl
theorem enc_queuePropMinRate : Enc queuePropMinRate Spec.V01.queuePropMinRate := impl_queuePropMinRate.enc_struct _ _
theorem nonEmpty_queuePropMinRate : NonEmpty Spec.V01.queuePropMinRate := by unfold Spec.V01.queuePropMinRate; nonempty
theorem dec_queuePropMinRate : Dec queuePropMinRate Spec.V01.queuePropMinRate false :=
  impl_queuePropMinRate.dec_struct _ _ nonEmpty_queuePropMinRate
end V01

namespace V04
theorem impl_queuePropMinRate : Impl false queuePropMinRateFields
    [("prop_header", Spec.V04.queuePropHeader), ("rate", Spec.V04.u16), ("pad", pad 6)] := by
  unfold queuePropMinRateFields propHeader
  refine .cons (impl_queueProp.enc_struct _ _) (impl_queueProp.dec_struct _ _ nonEmpty_queueProp) ?_
  impl
theorem enc_queuePropMinRate : Enc queuePropMinRate Spec.V04.queuePropMinRate := impl_queuePropMinRate.enc_struct _ _
theorem nonEmpty_queuePropMinRate : NonEmpty Spec.V04.queuePropMinRate := by unfold Spec.V04.queuePropMinRate; nonempty
theorem dec_queuePropMinRate : Dec queuePropMinRate Spec.V04.queuePropMinRate false :=
  impl_queuePropMinRate.dec_struct _ _ nonEmpty_queuePropMinRate

theorem impl_queuePropMaxRate : Impl false queuePropMaxRateFields
    [("prop_header", Spec.V04.queuePropHeader), ("rate", Spec.V04.u16), ("pad", pad 6)] := by
  unfold queuePropMaxRateFields propHeader
  refine .cons (impl_queueProp.enc_struct _ _) (impl_queueProp.dec_struct _ _ nonEmpty_queueProp) ?_
  impl
theorem enc_queuePropMaxRate : Enc queuePropMaxRate Spec.V04.queuePropMaxRate := impl_queuePropMaxRate.enc_struct _ _
theorem nonEmpty_queuePropMaxRate : NonEmpty Spec.V04.queuePropMaxRate := by unfold Spec.V04.queuePropMaxRate; nonempty
theorem dec_queuePropMaxRate : Dec queuePropMaxRate Spec.V04.queuePropMaxRate false :=
  impl_queuePropMaxRate.dec_struct _ _ nonEmpty_queuePropMaxRate

theorem impl_queuePropExperimenter : Impl true queuePropExperimenterFields
    [("prop_header", Spec.V04.queuePropHeader), ("experimenter", Spec.V04.u32), ("pad", pad 4), ("data", rest)] := by
  unfold queuePropExperimenterFields propHeader
  refine .cons (impl_queueProp.enc_struct _ _) (impl_queueProp.dec_struct _ _ nonEmpty_queueProp) ?_
  impl
theorem enc_queuePropExperimenter : Enc queuePropExperimenter Spec.V04.queuePropExperimenter :=
  impl_queuePropExperimenter.enc_struct _ _
theorem nonEmpty_queuePropExperimenter : NonEmpty Spec.V04.queuePropExperimenter := by
  unfold Spec.V04.queuePropExperimenter; nonempty
theorem dec_queuePropExperimenter : Dec queuePropExperimenter Spec.V04.queuePropExperimenter true :=
  impl_queuePropExperimenter.dec_struct _ _ nonEmpty_queuePropExperimenter

theorem enc_ports : Enc ports (Spec.list Spec.V04.port) := enc_list enc_port itemOk_struct
theorem dec_ports : Dec ports (Spec.list Spec.V04.port) true := dec_list enc_port dec_port nonEmpty_port

theorem impl_oxmExperimenter : Impl false oxmExperimenterFields
    [("oxm_header", uint 4 (some [0, 1, 0x8000, 0xffff]) (some 0xffff)), ("experimenter", Spec.V04.u32)] := by
  unfold oxmExperimenterFields
  impl
theorem enc_oxmExperimenter : Enc oxmExperimenter Spec.V04.oxmExperimenter := impl_oxmExperimenter.enc_struct _ _
theorem nonEmpty_oxmExperimenter : NonEmpty Spec.V04.oxmExperimenter := by unfold Spec.V04.oxmExperimenter; nonempty
theorem dec_oxmExperimenter : Dec oxmExperimenter Spec.V04.oxmExperimenter false :=
  impl_oxmExperimenter.dec_struct _ _ nonEmpty_oxmExperimenter

theorem impl_errorExperimenter : Impl true errorExperimenterFields
    [("error_type", uint 2 (some [0, 1, 2, 3, 4, 5, 6, 7, 8, 9, 10, 11, 12, 13, 0xffff]) (some 0xffff)), ("exp_type", Spec.V04.u16),
     ("experimenter", Spec.V04.u32), ("data", rest)] := by
  unfold errorExperimenterFields
  impl
/-- What `ErrorExperimenterMsg` would be without its own `unpack`. -/
theorem errorExperimenter_pack {v x d} (h : msgDen Spec.V04.errorExperimenter v = some (x, d)) :
    PackOk Spec.V04.errorExperimenter x d (errorExperimenter.pack v) :=
  (Impl.msg (m := msg "04.ErrorExperimenterMsg" 1 errorExperimenterFields) (s := Spec.V04.errorExperimenter)
    impl_errorExperimenter rfl rfl rfl rfl (by decide) (by decide) rfl rfl rfl rfl).pack v x d h
end V04

end Pyof
