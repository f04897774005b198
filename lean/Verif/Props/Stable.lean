import Verif.Lemmas.StableMsg04
import Verif.Spec.Stable
/-!
# C46 Accepted packets re-encode stably
-/
namespace Pyof.Props
open Pyof Spec

private theorem bare01 : ∀ p ∈ Spec.V01.plainMsgs, p.1 ∈ bareMsgs → ∃ d, (Spec.struct p.1 p.2.2).enc d = some [] ∧ (Spec.struct p.1 p.2.2).ok d := by
  simp only [Spec.V01.plainMsgs, List.forall_mem_cons]
  refine ⟨?_, ?_, ?_, ?_, ?_, ?_, ?_, ?_, ?_, ?_, ?_, ?_, ?_, ?_, ?_, ?_, ?_, ?_, by simp⟩ <;> intro h <;>
    first
    | exact absurd h (by decide)
    | exact ⟨.record [], rfl, trivial⟩
    | exact ⟨.record [.raw []], rfl, trivial, trivial⟩

private theorem bare04 : ∀ p ∈ Spec.V04.plainMsgs, p.1 ∈ bareMsgs → ∃ d, (Spec.struct p.1 p.2.2).enc d = some [] ∧ (Spec.struct p.1 p.2.2).ok d := by
  simp only [Spec.V04.plainMsgs, List.forall_mem_cons]
  refine ⟨?_, ?_, ?_, ?_, ?_, ?_, ?_, ?_, ?_, ?_, ?_, ?_, ?_, ?_, ?_, ?_, ?_, ?_, ?_, ?_, ?_, ?_, ?_, ?_, by simp⟩ <;> intro h <;>
    first
    | exact absurd h (by decide)
    | exact ⟨.record [], rfl, trivial⟩
    | exact ⟨.record [.raw []], rfl, trivial, trivial⟩
    | exact ⟨.record [.arr []], rfl, nofun, trivial⟩

private theorem bare {s : MsgFmt} (hs : s ∈ messages) (hn : s.name ∈ bareMsgs) : ∃ d, s.fmt.enc d = some [] ∧ s.fmt.ok d := by
  rcases List.mem_append.mp hs with h | h <;> rcases List.mem_append.mp h with h | h
  · obtain ⟨p, hp, rfl⟩ := List.mem_map.mp h
    exact bare01 p hp hn
  · simp only [List.mem_cons, List.not_mem_nil, or_false] at h
    rcases h with rfl | rfl | rfl | rfl <;> exact absurd hn (by decide)
  · obtain ⟨p, hp, rfl⟩ := List.mem_map.mp h
    exact bare04 p hp hn
  · simp only [List.mem_cons, List.not_mem_nil, or_false] at h
    rcases h with rfl | rfl | rfl | rfl <;> exact absurd hn (by decide)

private theorem weaken {m s T T' P P' k k'} (h : MsgStab m s T P k) (hT : ∀ b vs, T' b vs → T b vs) (hP : ∀ d, P' d → P d)
    (hk : k ≤ k') : MsgStab m s T' P' k' := by
  intro body vs hb hl hu
  obtain ⟨h1, h2⟩ := h.mono hk body vs hb hl hu
  exact ⟨fun ht => h1 (hT _ _ ht), fun d hd hp => h2 d hd (hP d hp)⟩

private theorem port {ok : Nat → Prop} {d : Data} (h : ∃ b p r, d = .record (b :: .num p :: r) ∧ ok p) : V01.portOk ok d := by
  obtain ⟨b, p, r, rfl, h⟩ := h
  exact h

private theorem stab01 {s : MsgFmt} (hs : s ∈ Spec.V01.messages) {m} (kn : Known s V01.lib m) :
    MsgStab m s (fun _ => complete s.name) (packable s.name) 32 := by
  rcases List.mem_append.mp hs with h | h
  · obtain ⟨p, hp, rfl⟩ := List.mem_map.mp h
    exact weaken (V01.stab_plainMsgs p hp m kn.find kn.ok) (fun _ _ _ => trivial) (fun _ _ => trivial) (by decide)
  · simp only [List.mem_cons, List.not_mem_nil, or_false] at h
    rcases h with rfl | rfl | rfl | rfl
    · cases Option.some.inj (kn.find.symm.trans (rfl : V01.lib.find 1 = some V01.errorMsg))
      exact weaken V01.stab_errorMsg (fun _ _ _ => trivial) (fun _ _ => trivial) (by decide)
    · cases Option.some.inj (kn.find.symm.trans (rfl : V01.lib.find 13 = some V01.packetOut))
      exact weaken V01.stab_packetOut (fun _ _ _ => trivial) (fun _ h => port (h.1 rfl)) (by decide)
    · cases Option.some.inj (kn.find.symm.trans (rfl : V01.lib.find 16 = some V01.statsRequest))
      exact weaken V01.stab_statsRequest (fun _ _ _ => trivial) (fun _ _ => trivial) (by decide)
    · cases Option.some.inj (kn.find.symm.trans (rfl : V01.lib.find 17 = some V01.statsReply))
      exact weaken V01.stab_statsReply (fun _ _ h => h) (fun _ _ => trivial) (by decide)

private theorem stab04 {s : MsgFmt} (hs : s ∈ Spec.V04.messages) {m} (kn : Known s V04.lib m) :
    MsgStab m s (fun _ => complete s.name) (packable s.name) 32 := by
  rcases List.mem_append.mp hs with h | h
  · obtain ⟨p, hp, rfl⟩ := List.mem_map.mp h
    exact weaken (V04.stab_plainMsgs p hp m kn.find kn.ok) (fun _ _ h => h) (fun _ _ => trivial) (by decide)
  · simp only [List.mem_cons, List.not_mem_nil, or_false] at h
    rcases h with rfl | rfl | rfl | rfl
    · cases Option.some.inj (kn.find.symm.trans (rfl : V04.lib.find 1 = some V04.errorMsg))
      exact weaken V04.stab_errorMsg (fun _ _ _ => trivial) (fun _ _ => trivial) (by decide)
    · cases Option.some.inj (kn.find.symm.trans (rfl : V04.lib.find 13 = some V04.packetOut))
      exact weaken V04.stab_packetOut (fun _ _ h => h) (fun _ h => port (h.2 rfl)) (by decide)
    · cases Option.some.inj (kn.find.symm.trans (rfl : V04.lib.find 18 = some V04.multipartRequest))
      exact weaken (V04.stab_multipart (r := .enum [0, 1]) rfl rfl V04.kstab_request (by decide)) (fun _ _ h => h) (fun _ _ => trivial) (by decide)
    · cases Option.some.inj (kn.find.symm.trans (rfl : V04.lib.find 19 = some V04.multipartReply))
      exact weaken (V04.stab_multipart (r := .none) rfl rfl V04.kstab_reply (by decide)) (fun _ _ h => h) (fun _ _ => trivial) (by decide)

/-- C46.  Let `p` be any bytes that `pyof.utils.unpack` accepts, giving an instance `w` of a message class with a layout in
`Spec`.  Then (first part) the instance has a content unless it is of one of the kinds excluded by `complete`, and (second
part) whenever it has a content `x`, `d` (transaction number and body) that `pack` accepts, `w.pack()` succeeds, what it
gives is accepted by `pyof.utils.unpack` again, the result has the same content and is packed to the same bytes.

Nothing is assumed about `p` besides that it leaves room for the padding that re-encoding may add (lengths are 16 bit
numbers) and that it is longer than a header unless the message may consist of a header alone.

Partial: the property does not hold for all accepted packets.  What is excluded here is excluded because the code violates
the property there, see the `C46_violated_*` theorems below. -/
theorem C46_stable_partial {s : MsgFmt} (hs : s ∈ messages) {p w hdr vs} (h : pyUnpack libs (.bytes p) = .ok w)
    (hw : w = .obj s.name (hdr :: vs)) (hroom : p.length + 32 < 65536) (hb : p.length = 8 → s.name ∈ bareMsgs) :
    (complete s.name vs → ∃ x d, msgDen s w = some (x, d)) ∧
    ∀ x d, msgDen s w = some (x, d) → packable s.name d →
      ∃ q w', pyPack libs w = .ok q ∧ pyUnpack libs (.bytes q) = .ok w' ∧ msgDen s w' = some (x, d) ∧ pyPack libs w' = .ok q := by
  obtain ⟨l, m, kn, hm⟩ : ∃ l m, Known s l m ∧ MsgStab m s (fun _ => complete s.name) (packable s.name) 32 := by
    rcases List.mem_append.mp hs with h | h
    · obtain ⟨m, kn⟩ := known_v01 h
      exact ⟨_, m, kn, stab01 h kn⟩
    · obtain ⟨m, kn⟩ := known_v04 h
      exact ⟨_, m, kn, stab04 h kn⟩
  obtain ⟨h1, h2⟩ := hm.unpack kn hs h hw hroom fun h8 => bare hs (hb h8)
  refine ⟨h1, fun x d hd hp => ?_⟩
  obtain ⟨q, w', h3, _, h4, h5⟩ := h2 x d hd hp
  exact ⟨q, w', h3, h4, h5, ((kn.pack h5).ok q).mpr (((kn.pack hd).ok q).mp h3)⟩

/-! ### Cases meeting the hypotheses -/

private def packAgain (p : Bytes) : Option (Res Bytes) :=
  match pyUnpack libs (.bytes p) with
  | .ok w => some (pyPack libs w)
  | .error _ => none

private theorem packs {p r} (h : packAgain p = some r) : ∃ w, pyUnpack libs (.bytes p) = .ok w ∧ pyPack libs w = r := by
  unfold packAgain at h
  split at h
  · next w hw => exact ⟨w, hw, by simpa using h⟩
  · cases h

private def errorAgain (p : Bytes) : Option Err :=
  match packAgain p with
  | some (.ok q) => match pyUnpack libs (.bytes q) with
    | .ok _ => none
    | .error e => some e
  | _ => none

private theorem unpacks {p e} (h : errorAgain p = some e) :
    ∃ w q, pyUnpack libs (.bytes p) = .ok w ∧ pyPack libs w = .ok q ∧ pyUnpack libs (.bytes q) = .error e := by
  unfold errorAgain at h
  split at h
  · next q hq =>
    obtain ⟨w, h1, h2⟩ := packs hq
    split at h
    · cases h
    · next e' he => cases h; exact ⟨w, q, h1, h2, he⟩
  · cases h

/-- A v0x01 port-mod whose padding is not zero and whose last four bytes of padding are missing: the new bytes differ. -/
private def portModBytes : Bytes := [1, 15, 0, 28, 0, 0, 0, 7] ++ [0, 1, 1, 2, 3, 4, 5, 6, 0, 0, 0, 1, 0, 0, 0, 3, 0, 0, 0, 4]
example : packAgain portModBytes = some (.ok ([1, 15, 0, 32, 0, 0, 0, 7] ++ [0, 1, 1, 2, 3, 4, 5, 6, 0, 0, 0, 1, 0, 0, 0, 3, 0, 0, 0, 4, 0, 0, 0, 0])) := by
  decide +kernel
private def classOf (p : Bytes) : Option (String × Bool) :=
  match pyUnpack libs (.bytes p) with
  | .ok (.obj c (_ :: _)) => some (c, true)
  | _ => none
private theorem classOf_some {p c b} (h : classOf p = some (c, b)) : ∃ hdr vs, pyUnpack libs (.bytes p) = .ok (.obj c (hdr :: vs)) := by
  unfold classOf at h
  split at h
  · next h1 => cases h; exact ⟨_, _, h1⟩
  · cases h
example : ∃ s hdr vs w, s ∈ messages ∧ pyUnpack libs (.bytes portModBytes) = .ok w ∧ w = .obj s.name (hdr :: vs) ∧
    portModBytes.length + 32 < 65536 ∧ (portModBytes.length = 8 → s.name ∈ bareMsgs) ∧ complete s.name vs ∧
    ∀ d, packable s.name d := by
  obtain ⟨hdr, vs, h⟩ := classOf_some (p := portModBytes) (c := "01.PortMod") (b := true) (by decide +kernel)
  obtain ⟨s, hs, hn⟩ : ∃ s ∈ messages, s.name = "01.PortMod" := List.mem_map.mp (show _ ∈ messages.map (·.name) by decide +kernel)
  exact ⟨s, hdr, vs, _, hs, h, by rw [hn], by decide, fun h => absurd h (by decide), by rw [hn]; exact fun h => absurd h (by decide), fun d => by rw [hn]; simp [packable]⟩

/-- A v0x04 group-mod with a bucket that announces its length and has two actions. -/
private def groupModBytes : Bytes := [4, 15, 0, 56, 0, 0, 0, 1] ++ [0, 0, 0, 0, 0, 0, 0, 1] ++ [0, 40, 0, 16, 0, 0, 0, 5, 0, 0, 0, 1, 0, 0, 0, 0] ++
  [0, 0, 0, 16, 0, 0, 0, 1, 0, 128, 0, 0, 0, 0, 0, 0] ++ [0, 22, 0, 8, 0, 0, 0, 9]
private def cleanOf (p : Bytes) : Option (String × Bool) :=
  match pyUnpack libs (.bytes p) with
  | .ok (.obj c (_ :: vs)) => some (c, clean (.obj c vs))
  | _ => none
private theorem cleanOf_some {p c b} (h : cleanOf p = some (c, b)) :
    ∃ hdr vs, pyUnpack libs (.bytes p) = .ok (.obj c (hdr :: vs)) ∧ clean (.obj c vs) = b := by
  unfold cleanOf at h
  split at h
  · next h1 => cases h; exact ⟨_, _, h1, rfl⟩
  · cases h
example : ∃ s hdr vs w, s ∈ messages ∧ pyUnpack libs (.bytes groupModBytes) = .ok w ∧ w = .obj s.name (hdr :: vs) ∧
    groupModBytes.length + 32 < 65536 ∧ (groupModBytes.length = 8 → s.name ∈ bareMsgs) ∧ s.name ∈ openMsgs ∧ complete s.name vs ∧
    ∀ d, packable s.name d := by
  obtain ⟨hdr, vs, h, hc⟩ := cleanOf_some (p := groupModBytes) (c := "04.GroupMod") (b := true) (by decide +kernel)
  obtain ⟨s, hs, hn⟩ : ∃ s ∈ messages, s.name = "04.GroupMod" := List.mem_map.mp (show _ ∈ messages.map (·.name) by decide +kernel)
  exact ⟨s, hdr, vs, _, hs, h, by rw [hn], by decide, fun h => absurd h (by decide), by rw [hn]; decide, by rw [hn]; exact fun _ => hc,
    fun d => by rw [hn]; simp [packable]⟩

/-! ### Where the code violates the property -/

/-- A packet with a header alone is accepted for every message class; the attributes stay `None` and cannot be packed. -/
theorem C46_violated_header_only : ∃ w, pyUnpack libs (.bytes [1, 6, 0, 8, 0, 0, 0, 1]) = .ok w ∧ pyPack libs w = .error .attribute :=
  packs (by decide +kernel)

/-- `PacketOut.unpack` accepts input ports that `pack` rejects. -/
theorem C46_violated_in_port :
    ∃ w, pyUnpack libs (.bytes [1, 13, 0, 16, 0, 0, 0, 1, 0, 0, 0, 0, 0, 0, 0, 0]) = .ok w ∧ pyPack libs w = .error .validation :=
  packs (by decide +kernel)

/-- A first `HelloElemHeader` that announces the length 0 is decoded from an empty buffer; its attributes stay `None`. -/
theorem C46_violated_hello_length :
    ∃ w, pyUnpack libs (.bytes [4, 0, 0, 12, 0, 0, 0, 1, 0, 1, 0, 0]) = .ok w ∧ pyPack libs w = .error .pack :=
  packs (by decide +kernel)

/-- `ActionExperimenter` pads its body but announces its length without the padding: the second decoding fails. -/
theorem C46_violated_experimenter :
    ∃ w q, pyUnpack libs (.bytes ([4, 13, 0, 56, 0, 0, 0, 1] ++ [0, 0, 0, 0, 0, 0, 0, 1, 0, 32, 0, 0, 0, 0, 0, 0] ++
      [255, 255, 0, 9, 0, 0, 0, 5, 7, 0, 0, 0, 0, 0, 0, 0] ++ [0, 0, 0, 16, 0, 0, 0, 2, 0, 0, 0, 0, 0, 0, 0, 0])) = .ok w ∧
      pyPack libs w = .ok q ∧ pyUnpack libs (.bytes q) = .error .unpack :=
  unpacks (by decide +kernel)

/-- `MeterMod.bands` is a bare `FixedTypeList`, whose items are decoded and packed but not counted by `get_size`. -/
theorem C46_violated_meter_bands :
    ∃ w q, pyUnpack libs (.bytes ([4, 29, 0, 32, 0, 0, 0, 1] ++ [0, 0, 0, 0, 0, 0, 0, 1] ++ [0, 1, 0, 16, 0, 0, 0, 5, 0, 0, 0, 1, 0, 0, 0, 0])) = .ok w ∧
      pyPack libs w = .ok q ∧ pyUnpack libs (.bytes q) = .error .unpack :=
  unpacks (by decide +kernel)

/-- The size of a `Bucket` is what was announced, not what it is packed to. -/
theorem C46_violated_bucket_length :
    ∃ w q, pyUnpack libs (.bytes ([4, 15, 0, 32, 0, 0, 0, 1] ++ [0, 0, 0, 0, 0, 0, 0, 1] ++ [0, 17, 0, 16, 0, 0, 0, 5, 0, 0, 0, 1, 0, 0, 0, 0])) = .ok w ∧
      pyPack libs w = .ok q ∧ pyUnpack libs (.bytes q) = .error .unpack :=
  unpacks (by decide +kernel)

/-- An empty body of a statistics reply. -/
theorem C46_violated_empty_desc :
    ∃ w, pyUnpack libs (.bytes [1, 17, 0, 12, 0, 0, 0, 1, 0, 0, 0, 0]) = .ok w ∧ pyPack libs w = .error .type :=
  packs (by decide +kernel)

/-- An empty body of a multipart request. -/
theorem C46_violated_empty_request :
    ∃ w, pyUnpack libs (.bytes [4, 18, 0, 16, 0, 0, 0, 1, 0, 1, 0, 0, 0, 0, 0, 0]) = .ok w ∧ pyPack libs w = .error .pack :=
  packs (by decide +kernel)

end Pyof.Props
