import Verif.Props.Messages
/-!
# C63: a stream of packets

OpenFlow messages are sent one after the other over a connection that delivers the bytes in pieces of any size.  A program finds the
packets by decoding a `Header` from the first eight bytes and waiting for as many bytes as its `length` tells.
-/
namespace Pyof.Props
open Pyof Pyof.Spec

/-- The next packet in the bytes `s` and what follows it: `header = Header(); header.unpack(s[:8]); n = header.length.value`,
`s[:n]` and `s[n:]`, when there are so many bytes.  `l` is the version of the connection. -/
def nextPacket (l : Lib) (s : Bytes) : Option (Bytes × Bytes) :=
  if s.length < 8 then none
  else
    match unpackAttrs (headerFields l.ver l.types) (s.take 8) 0 with
    | .ok ([_, _, .ub _ (.int n), _], _) => if 8 ≤ n ∧ n.toNat ≤ s.length then some (s.take n.toNat, s.drop n.toNat) else none
    | _ => none

private theorem nextPacket_inv {l : Lib} {s p r : Bytes} (h : nextPacket l s = some (p, r)) : s = p ++ r ∧ 8 ≤ p.length := by
  unfold nextPacket at h
  split at h
  · cases h
  · split at h
    · split at h
      · rename_i n _ _ _ hn
        cases h
        exact ⟨(List.take_append_drop _ _).symm, by rw [List.length_take]; omega⟩
      · cases h
    · cases h

/-- All packets that are complete in `s`, and the bytes that remain. -/
def packets (l : Lib) (s : Bytes) : List Bytes × Bytes :=
  match h : nextPacket l s with
  | none => ([], s)
  | some (p, r) => (p :: (packets l r).1, (packets l r).2)
termination_by s.length
decreasing_by all_goals (have := nextPacket_inv h; rw [this.1, List.length_append]; omega)

/-- The program: the packets found so far and the bytes that remain; then a piece of the stream arrives. -/
def receive (l : Lib) (st : List Bytes × Bytes) (piece : Bytes) : List Bytes × Bytes :=
  (st.1 ++ (packets l (st.2 ++ piece)).1, (packets l (st.2 ++ piece)).2)

private theorem nextPacket_append {l : Lib} {s p r : Bytes} (h : nextPacket l s = some (p, r)) (t : Bytes) :
    nextPacket l (s ++ t) = some (p, r ++ t) := by
  obtain ⟨hs, hp⟩ := nextPacket_inv h
  have h8 : 8 ≤ s.length := by rw [hs, List.length_append]; omega
  unfold nextPacket at h ⊢
  rw [if_neg (by omega)] at h
  rw [if_neg (by rw [List.length_append]; omega), List.take_append_of_le_length h8]
  split at h
  · split at h
    · rename_i hn
      cases h
      rw [if_pos ⟨hn.1, by rw [List.length_append]; omega⟩, List.take_append_of_le_length hn.2, List.drop_append_of_le_length hn.2]
    · cases h
  · cases h

private theorem packets_none {l : Lib} {s : Bytes} (h : nextPacket l s = none) : packets l s = ([], s) := by
  rw [packets]
  split
  · rfl
  · rename_i h'
    rw [h] at h'
    cases h'

private theorem packets_some {l : Lib} {s p r : Bytes} (h : nextPacket l s = some (p, r)) :
    packets l s = (p :: (packets l r).1, (packets l r).2) := by
  rw [packets]
  split
  · rename_i h'
    rw [h] at h'
    cases h'
  · rename_i h'
    rw [h] at h'
    cases h'
    rfl

private theorem packets_append (l : Lib) (t : Bytes) : ∀ (n : Nat) (s : Bytes), s.length ≤ n →
    packets l (s ++ t) = ((packets l s).1 ++ (packets l ((packets l s).2 ++ t)).1, (packets l ((packets l s).2 ++ t)).2) := by
  intro n
  induction n with
  | zero =>
    intro s hs
    have : s = [] := List.length_eq_zero_iff.mp (by omega)
    subst this
    rw [packets_none (s := []) rfl]
    rfl
  | succ n ih =>
    intro s hs
    cases hq : nextPacket l s with
    | none => rw [packets_none hq]; rfl
    | some q =>
      obtain ⟨p, r⟩ := q
      obtain ⟨h1, h2⟩ := nextPacket_inv hq
      have hl : r.length ≤ n := by
        have := congrArg List.length h1
        rw [List.length_append] at this
        omega
      rw [packets_some hq, packets_some (nextPacket_append hq t), ih r hl]
      rfl

/-- C63.  However the stream is cut into pieces, the same packets are found, and the same bytes remain, as if it came in one piece. -/
theorem C63_pieces (l : Lib) (pieces : List Bytes) :
    pieces.foldl (receive l) ([], []) = packets l pieces.flatten := by
  suffices ∀ (qs : List Bytes) (s : Bytes), qs.foldl (receive l) (packets l s) = packets l (s ++ qs.flatten) by
    have h := this pieces []
    rwa [packets_none (s := []) rfl, List.nil_append] at h
  intro qs
  induction qs with
  | nil => intro s; simp
  | cons q r ih =>
    intro s
    have : receive l (packets l s) q = packets l (s ++ q) := (packets_append l q _ s (Nat.le_refl _)).symm
    rw [List.foldl_cons, this, ih, List.flatten_cons, List.append_assoc]

/-- A packet of version `ver` is the result of packing a message. -/
def Sent (ver : Nat) (p : Bytes) : Prop :=
  ∃ s ∈ messages, s.ver = ver ∧ ∃ v x d, msgDen s v = some (x, d) ∧ s.fmt.ok d ∧ pyPack libs v = .ok p

/-- The header of a packed message tells its length, whatever follows. -/
private theorem sent_header {l : Lib} (hl : l ∈ libs) {p : Bytes} (hp : Sent l.ver p) :
    8 ≤ p.length ∧ ∃ a b w c k, unpackAttrs (headerFields l.ver l.types) (p.take 8) 0 = .ok ([a, b, .ub w (.int p.length), c], k) := by
  obtain ⟨s, hs, hver, v, x, d, hv, hok, hp⟩ := hp
  obtain ⟨l', m, k⟩ := known hs
  have hll : l' = l := by
    have h1 := k.vlib
    rw [← k.ver, hver] at h1
    simp only [libs, List.mem_cons, List.not_mem_nil, or_false] at hl
    rcases hl with rfl | rfl
    · exact (Option.some.inj h1).symm
    · exact (Option.some.inj h1).symm
  subst hll
  obtain ⟨body, _, hb, hx, rfl⟩ := ((k.pack hv).ok p).mp hp
  have h8 : 8 ≤ (packet s.ver s.code x body).length := by rw [packet_length]; omega
  refine ⟨h8, ?_⟩
  obtain ⟨b0, b1, b2, b3, b4, b5, b6, b7, r, hpk⟩ := eight h8
  have hc := packet_byte1 s.ver s.code x body
  have hn := packet_len_field s.ver s.code x body
  have p2 : (256 : Nat) ^ 2 = 65536 := by decide
  have hlen : beVal [b2, b3] = (packet s.ver s.code x body).length := by
    have h24 : slice (packet s.ver s.code x body) 2 4 = [b2, b3] := by rw [hpk]; rfl
    rw [← h24, hn, packet_length, beVal_be_of_lt (by rw [p2]; exact hb)]
  have ht : b1.toNat ∈ l'.types := by
    rw [hpk] at hc
    have : b1 = UInt8.ofNat s.code := by simpa using hc
    rw [this, UInt8.toNat_ofNat_of_lt' (show s.code < UInt8.size from k.code.1)]
    exact k.code.2
  have htake : (packet s.ver s.code x body).take 8 = [b0, b1, b2, b3, b4, b5, b6, b7] := by rw [hpk]; rfl
  rw [htake, header_bytes, if_pos ht, hlen]
  exact ⟨_, _, _, _, _, rfl⟩

private theorem sent_next {l : Lib} (hl : l ∈ libs) {p : Bytes} (hp : Sent l.ver p) (t : Bytes) : nextPacket l (p ++ t) = some (p, t) := by
  obtain ⟨h8, a, b, w, c, k, he⟩ := sent_header hl hp
  unfold nextPacket
  rw [if_neg (by rw [List.length_append]; omega), List.take_append_of_le_length h8, he]
  simp only [Int.toNat_natCast]
  rw [if_pos ⟨by omega, by rw [List.length_append]; omega⟩]
  simp

private theorem part_next {l : Lib} (hl : l ∈ libs) {last more : Bytes} (hm : more ≠ []) (hp : Sent l.ver (last ++ more)) :
    nextPacket l last = none := by
  obtain ⟨h8, a, b, w, c, k, he⟩ := sent_header hl hp
  unfold nextPacket
  split
  · rfl
  · rename_i hlt
    rw [List.take_append_of_le_length (by omega)] at he
    rw [he]
    simp only [Int.toNat_natCast]
    have : 0 < more.length := List.length_pos_iff.mpr hm
    rw [if_neg (by rw [List.length_append]; omega)]

/-- C63.  A stream of packed messages, of which the last may be incomplete, is cut into exactly these packets, whatever pieces it
arrives in; the incomplete one remains. -/
theorem C63_stream {l : Lib} (hl : l ∈ libs) {ps : List Bytes} (hps : ∀ p ∈ ps, Sent l.ver p) {last more : Bytes}
    (hlast : last = [] ∨ more ≠ [] ∧ Sent l.ver (last ++ more)) {pieces : List Bytes} (hf : pieces.flatten = ps.flatten ++ last) :
    pieces.foldl (receive l) ([], []) = (ps, last) := by
  rw [C63_pieces, hf]
  have hn : nextPacket l last = none := by
    rcases hlast with rfl | ⟨h1, h2⟩
    · rfl
    · exact part_next hl h1 h2
  clear hf
  induction ps with
  | nil => exact packets_none hn
  | cons p r ih =>
    rw [List.flatten_cons, List.append_assoc, packets_some (sent_next hl (hps p List.mem_cons_self) _),
      ih fun q hq => hps q (List.mem_cons_of_mem _ hq)]

/-- C63.  Each packet found in such a stream is decoded to a message of the class, transaction id and content of the one that was
packed. -/
theorem C63_decoded {l : Lib} (hl : l ∈ libs) {ps : List Bytes} (hps : ∀ p ∈ ps, Sent l.ver p) {pieces : List Bytes}
    (hf : pieces.flatten = ps.flatten) {i : Nat} {s : MsgFmt} (hs : s ∈ messages) {v : Val} {x : Nat} {d : Data}
    (hv : msgDen s v = some (x, d)) (hok : s.fmt.ok d) {p : Bytes} (hp : pyPack libs v = .ok p) (hi : ps[i]? = some p) :
    ∃ q w, (pieces.foldl (receive l) ([], [])).1[i]? = some q ∧ pyUnpack libs (.bytes q) = .ok w ∧ msgDen s w = some (x, d) := by
  rw [C63_stream (last := []) (more := []) hl hps (.inl rfl) (by simpa using hf)]
  rcases List.mem_append.mp hs with h | h
  · obtain ⟨w, h1, h2, _⟩ := C19_round_trip h hv hok hp
    exact ⟨p, w, hi, h1, h2⟩
  · obtain ⟨w, h1, h2, _⟩ := C20_round_trip h hv hok hp
    exact ⟨p, w, hi, h1, h2⟩

/-- Two messages of OpenFlow 1.0: the flow-mod above and a barrier request. -/
example : ∃ p q, Sent V01.lib.ver p ∧ Sent V01.lib.ver q ∧ p ≠ q := by
  refine ⟨[1, 18, 0, 8, 0, 0, 0, 3], _, ⟨V01.messages[14]'(by decide +kernel), List.mem_append_left _ (List.getElem_mem _), rfl,
    .obj "01.BarrierRequest" [.obj "01.Header" [.ub 1 (.int 1), .enum 18, .none, .int 3]], 3, _, rfl, ?_, by decide +kernel⟩,
    ⟨V01.messages[12]'(by decide +kernel), List.mem_append_left _ (List.getElem_mem _), rfl, exFlowMod01 (.enum 0xffff) .none, 7, _, rfl, ?_, rfl⟩, ?_⟩
  · show_ok
  · show_ok
  · decide +kernel

/-- The first piece ends within the header of the second packet. -/
example : [[1, 18, 0, 8, 0, 0, 0, 3, 1, 18], [0, 8, 0, 0, 0, 4, 1]].foldl (receive V01.lib) ([], []) =
    ([[1, 18, 0, 8, 0, 0, 0, 3], [1, 18, 0, 8, 0, 0, 0, 4]], [1]) := by
  rw [C63_pieces]
  rw [packets_some (p := [1, 18, 0, 8, 0, 0, 0, 3]) (r := [1, 18, 0, 8, 0, 0, 0, 4, 1]) (by decide +kernel),
    packets_some (p := [1, 18, 0, 8, 0, 0, 0, 4]) (r := [1]) (by decide +kernel), packets_none (by decide +kernel)]

/-- A barrier request of OpenFlow 1.0, sent with the transaction id 3 or 4; they arrive in three pieces, with the first byte of a third one. -/
private theorem exSent (n : Nat) (h : n = 3 ∨ n = 4) : Sent V01.lib.ver [1, 18, 0, 8, 0, 0, 0, n.toUInt8] := by
  rcases h with rfl | rfl
  · exact ⟨V01.messages[14]'(by decide +kernel), List.mem_append_left _ (List.getElem_mem _), rfl,
      .obj "01.BarrierRequest" [.obj "01.Header" [.ub 1 (.int 1), .enum 18, .none, .int 3]], 3, _, rfl, by show_ok, by decide +kernel⟩
  · exact ⟨V01.messages[14]'(by decide +kernel), List.mem_append_left _ (List.getElem_mem _), rfl,
      .obj "01.BarrierRequest" [.obj "01.Header" [.ub 1 (.int 1), .enum 18, .none, .int 4]], 4, _, rfl, by show_ok, by decide +kernel⟩
example := C63_stream (l := V01.lib) (by simp [libs]) (ps := [[1, 18, 0, 8, 0, 0, 0, 3], [1, 18, 0, 8, 0, 0, 0, 4]])
  (by
    intro p hp
    simp only [List.mem_cons, List.not_mem_nil, or_false] at hp
    rcases hp with rfl | rfl
    · exact exSent 3 (.inl rfl)
    · exact exSent 4 (.inr rfl))
  (last := [1]) (more := [18, 0, 8, 0, 0, 0, 3]) (.inr ⟨by decide, exSent 3 (.inl rfl)⟩)
  (pieces := [[1, 18, 0, 8], [0, 0, 0, 3, 1, 18, 0], [8, 0, 0, 0, 4, 1]]) rfl

end Pyof.Props
