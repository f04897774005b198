import Verif.Lemmas.Variant
/-! Tactics that check a class declaration against a format, attribute by attribute. -/
namespace Pyof
open Spec

theorem enc_uint' {w ref dv ms dflt} (h : dv = dfltVal dflt) : Enc (ubint w ref dv) (Spec.uint w ms dflt) :=
  h ▸ enc_uint w ref dflt ms
theorem dec_uint' {w ref dv ms dflt} (hw : 0 < w) (h : ms = ref.members) :
    Dec (ubint w ref dv) (Spec.uint w ms dflt) false := by
  subst h; exact dec_uint w ref dv dflt hw
theorem enc_hw' {dv dflt} (h : dflt = hwRead dv) : Enc (hwAttr dv) (Spec.hw dflt) := h ▸ enc_hw dv
theorem enc_ip' {a m dflt} (h : dflt = ipRead (.str a)) : Enc (ipAttr a m) (Spec.ip dflt) := h ▸ enc_ip a m
theorem enc_ip6' {dflt} (h : dflt = ip6Read (.str ip6Zero)) : Enc ip6Attr (Spec.ip6 dflt) := h ▸ enc_ip6

theorem Spec.NonEmpty.first {cls : String} {n f} {fs : FieldFmts} (hf : NonEmpty f) :
    NonEmpty (Spec.struct cls ((n, f) :: fs)) := hf.struct (List.mem_cons_self)

syntax "enc1" : tactic
macro_rules | `(tactic| enc1) => `(tactic| exact enc_uint' rfl)
macro_rules | `(tactic| enc1) => `(tactic| exact enc_pad _)
macro_rules | `(tactic| enc1) => `(tactic| exact enc_hw' (by decide +kernel))
macro_rules | `(tactic| enc1) => `(tactic| exact enc_ip' (by decide +kernel))
macro_rules | `(tactic| enc1) => `(tactic| exact enc_ip6' (by decide +kernel))
macro_rules | `(tactic| enc1) => `(tactic| exact enc_dpid)
macro_rules | `(tactic| enc1) => `(tactic| exact enc_text (by decide))
macro_rules | `(tactic| enc1) => `(tactic| exact enc_rest)
macro_rules | `(tactic| enc1) => `(tactic| assumption)

syntax "dec1" : tactic
macro_rules | `(tactic| dec1) => `(tactic| exact dec_uint' (by decide) rfl)
macro_rules | `(tactic| dec1) => `(tactic| exact dec_pad _)
macro_rules | `(tactic| dec1) => `(tactic| exact dec_hw _ _)
macro_rules | `(tactic| dec1) => `(tactic| exact dec_ip _ _ _)
macro_rules | `(tactic| dec1) => `(tactic| exact dec_ip6 _)
macro_rules | `(tactic| dec1) => `(tactic| exact dec_dpid)
macro_rules | `(tactic| dec1) => `(tactic| exact dec_text (by decide))
macro_rules | `(tactic| dec1) => `(tactic| exact dec_rest)
macro_rules | `(tactic| dec1) => `(tactic| assumption)

/-- One step: the last attribute may run to the end of the buffer. -/
macro "impl1" : tactic => `(tactic| first
  | exact Impl.nil
  | refine Impl.cons (by enc1) (by dec1) ?_
  | exact Impl.last (by enc1) (by dec1))
macro "impl" : tactic => `(tactic| (repeat' impl1))

macro "nonempty" : tactic => `(tactic| first
  | exact NonEmpty.first (nonEmpty_uint _ _ _)
  | exact NonEmpty.first nonEmpty_text
  | exact NonEmpty.first (NonEmpty.first (nonEmpty_uint _ _ _)))

end Pyof
