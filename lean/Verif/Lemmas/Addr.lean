import Verif.Lemmas.Text
/-! The address types and `Char` implement their wire formats. -/
namespace Pyof
open Spec

theorem rawEnc_inv {n d b} (h : rawEnc n d = some b) : d = .raw b ∧ b.length = n := by
  cases d <;> simp [rawEnc] at h
  obtain ⟨h1, rfl⟩ := h
  exact ⟨rfl, h1⟩

theorem rawEnc_raw {n b} (h : b.length = n) : rawEnc n (.raw b) = some b := by simp [rawEnc, h]

/-- Contract for an attribute that reads text into `n` bytes and always has size `n`. -/
theorem enc_raw {c : Attr} {f : Fmt} {n : Nat} (henc : f.enc = rawEnc n)
    (hden : ∀ v d, f.den v = some d → ∃ b, d = .raw b ∧ b.length = n ∧ c.pack v = .ok b)
    (hs : ∀ v, c.size v = .ok n) (hu : ∀ v, c.usize v = .ok n) : Enc c f where
  pack := by
    intro v d h b
    obtain ⟨x, rfl, hl, hp⟩ := hden v d h
    rw [hp, henc, rawEnc_raw hl]; simp
  size := by
    intro v d b _ hb
    rw [henc] at hb
    rw [hs, (rawEnc_inv hb).2]
  usize := by
    intro v d b _ _ hb
    rw [henc] at hb
    rw [hu, (rawEnc_inv hb).2]

theorem dec_raw {c : Attr} {f : Fmt} {n : Nat} (hn : 0 < n) (henc : f.enc = rawEnc n)
    (hun : ∀ b pre post, b.length = n → ∃ u, c.unpack (pre ++ b ++ post) pre.length = .ok u ∧
      f.den u = some (.raw b) ∧ u ≠ .none) : Dec c f false where
  unpack := by
    intro d b pre post he _ _ _
    rw [henc] at he
    obtain ⟨rfl, hl⟩ := rawEnc_inv he
    exact hun b pre post hl
  empty := by
    intro d he
    rw [henc] at he
    have := (rawEnc_inv he).2
    simp at this; omega

theorem nonEmpty_raw {f : Fmt} {n : Nat} (hn : 0 < n) (henc : f.enc = rawEnc n) : NonEmpty f := by
  intro d he
  rw [henc] at he
  have := (rawEnc_inv he).2
  simp at this; omega

/-! ## MAC addresses -/

theorem hwPackRaw_read {v b} (h : hwRead v = some b) : hwPackRaw v = .ok b ∧ b.length = 6 := by
  cases v <;> simp [hwRead] at h
  case int i =>
    obtain ⟨rfl, rfl⟩ := h
    exact ⟨by rfl, rfl⟩
  case str s =>
    have hl := groups_length h
    rw [splitInts_groups] at h
    unfold hwPackRaw
    simp only [isZero]
    cases hx : splitInts ':' 16 s with
    | none => rw [hx] at h; cases h
    | some xs =>
      rw [hx] at h
      simp only [Option.bind_some] at h
      simp [h, hl, hx]

theorem hw_den_inv {dv v d} (h : (Spec.hw (hwRead dv)).den v = some d) :
    ∃ b, d = .raw b ∧ b.length = 6 ∧ (hwAttr dv).pack v = .ok b := by
  have key : ∀ x, (hwRead x).map Data.raw = some d →
      ∃ b, d = .raw b ∧ b.length = 6 ∧ hwPackRaw x = .ok b := by
    intro x hx
    cases hr : hwRead x with
    | none => rw [hr] at hx; cases hx
    | some b =>
      rw [hr] at hx; cases hx
      exact ⟨b, rfl, (hwPackRaw_read hr).2, (hwPackRaw_read hr).1⟩
  cases v <;> exact key _ (by simpa only [Spec.hw] using h)

theorem enc_hw (dv : Val) : Enc (hwAttr dv) (Spec.hw (hwRead dv)) :=
  enc_raw (n := 6) rfl (fun _ _ h => hw_den_inv h) (fun _ => rfl) (fun _ => rfl)

theorem groups_hw {b : Bytes} (h : b.length = 6) :
    groups ':' 16 1 6 (joinC ':' ((chunks 1 6 b).map (hexFix 2))) = some b :=
  groups_join (by decide) (by omega)
    (fun n hn => ⟨pyInt_hexFix (by decide) (by simpa using hn), hexFix_no_colon⟩)

theorem hwUnpack_mid {b : Bytes} (pre post : Bytes) (h : b.length = 6) :
    hwUnpack (pre ++ b ++ post) pre.length = .ok (.hw (.str (joinC ':' ((chunks 1 6 b).map (hexFix 2))))) := by
  unfold hwUnpack
  rw [slice_mid' pre b post (by omega)]
  simp [structUnpack, h]

theorem dec_hw (dv : Val) (dflt) : Dec (hwAttr dv) (Spec.hw dflt) false :=
  dec_raw (n := 6) (by decide) rfl fun b pre post hl =>
    ⟨_, hwUnpack_mid pre post hl, by simp [Spec.hw, hwRead, groups_hw hl], by simp⟩

/-! ## IPv4 addresses -/

theorem ipPackRaw_read {v b} (h : ipRead v = some b) : ipPackRaw v = .ok b ∧ b.length = 4 := by
  cases v <;> simp only [ipRead, reduceCtorEq] at h
  case str s =>
    have hl := groups_length h
    rw [splitInts_groups, ← beforeSlash_eq] at h
    unfold ipPackRaw
    cases hx : splitInts '.' 10 (beforeSlash s) with
    | none => rw [hx] at h; cases h
    | some xs =>
      rw [hx] at h
      simp only [Option.bind_some] at h
      simp [h, hl, hx]

theorem ip_den_inv {addr m v d} (h : (Spec.ip (ipRead (.str addr))).den v = some d) :
    ∃ b, d = .raw b ∧ b.length = 4 ∧ (ipAttr addr m).pack v = .ok b := by
  have key : ∀ x, (ipRead x).map Data.raw = some d →
      ∃ b, d = .raw b ∧ b.length = 4 ∧ ipPackRaw x = .ok b := by
    intro x hx
    cases hr : ipRead x with
    | none => rw [hr] at hx; cases hx
    | some b =>
      rw [hr] at hx; cases hx
      exact ⟨b, rfl, (ipPackRaw_read hr).2, (ipPackRaw_read hr).1⟩
  cases v <;> exact key _ (by simpa only [Spec.ip] using h)

theorem enc_ip (addr : Str) (m : Int) : Enc (ipAttr addr m) (Spec.ip (ipRead (.str addr))) :=
  enc_raw (n := 4) rfl (fun _ _ h => ip_den_inv h) (fun _ => rfl) (fun _ => rfl)

theorem groups_ip {b : Bytes} (h : b.length = 4) :
    groups '.' 10 1 4 (joinC '.' ((chunks 1 4 b).map decStr)) = some b :=
  groups_join (by decide) (by omega)
    (fun n hn => ⟨(decStr_table n (by simpa using hn)).1, (decStr_table n (by simpa using hn)).2.1⟩)

theorem ipText_no_slash {b : Bytes} (h : b.length = 4) : '/' ∉ joinC '.' ((chunks 1 4 b).map decStr) := by
  intro hm
  rcases mem_joinC hm with h1 | ⟨p, hp, hc⟩
  · exact absurd h1 (by decide)
  · obtain ⟨n, hn, rfl⟩ := List.mem_map.mp hp
    have := chunks_lt (w := 1) (k := 4) (b := b) (by omega) n hn
    exact (decStr_table n (by simpa using this)).2.2 hc

theorem ipUnpack_mid {b : Bytes} (m : Int) (pre post : Bytes) (h : b.length = 4) :
    ipUnpack m (pre ++ b ++ post) pre.length = .ok (.ip (.str (joinC '.' ((chunks 1 4 b).map decStr))) m) := by
  unfold ipUnpack
  rw [slice_mid' pre b post (by omega)]
  simp [structUnpack, h]

theorem dec_ip (addr : Str) (m : Int) (dflt) : Dec (ipAttr addr m) (Spec.ip dflt) false :=
  dec_raw (n := 4) (by decide) rfl fun b pre post hl =>
    ⟨_, ipUnpack_mid m pre post hl, by
      simp only [Spec.ip, ipRead]
      rw [takeWhile_ne_self (ipText_no_slash hl), groups_ip hl]; rfl, by simp⟩

/-! ## IPv6 addresses -/

theorem ip6PackRaw_read {v b} (h : ip6Read v = some b) : ip6PackRaw v = .ok b ∧ b.length = 16 := by
  cases v <;> simp only [ip6Read, reduceCtorEq] at h
  case str s =>
    have hl := groups_length h
    rw [splitInts_groups, ← beforeSlash_eq] at h
    unfold ip6PackRaw
    cases hx : splitInts ':' 16 (beforeSlash s) with
    | none => rw [hx] at h; cases h
    | some xs =>
      rw [hx] at h
      simp only [Option.bind_some] at h
      simp [h, hl, hx]

theorem ip6_den_inv {v d} (h : (Spec.ip6 (ip6Read (.str ip6Zero))).den v = some d) :
    ∃ b, d = .raw b ∧ b.length = 16 ∧ ip6Attr.pack v = .ok b := by
  have key : ∀ x, (ip6Read x).map Data.raw = some d →
      ∃ b, d = .raw b ∧ b.length = 16 ∧ ip6PackRaw x = .ok b := by
    intro x hx
    cases hr : ip6Read x with
    | none => rw [hr] at hx; cases hx
    | some b =>
      rw [hr] at hx; cases hx
      exact ⟨b, rfl, (ip6PackRaw_read hr).2, (ip6PackRaw_read hr).1⟩
  cases v <;> exact key _ (by simpa only [Spec.ip6] using h)

theorem enc_ip6 : Enc ip6Attr (Spec.ip6 (ip6Read (.str ip6Zero))) :=
  enc_raw (n := 16) rfl (fun _ _ h => ip6_den_inv h) (fun _ => rfl) (fun _ => rfl)

theorem groups_ip6 {b : Bytes} (h : b.length = 16) :
    groups ':' 16 2 8 (joinC ':' ((chunks 2 8 b).map (hexFix 4))) = some b :=
  groups_join (by decide) (by omega)
    (fun n hn => ⟨pyInt_hexFix (by decide) (by simpa using hn), hexFix_no_colon⟩)

theorem ip6Text_no_slash {b : Bytes} : '/' ∉ joinC ':' ((chunks 2 8 b).map (hexFix 4)) := by
  intro hm
  rcases mem_joinC hm with h1 | ⟨p, hp, hc⟩
  · exact absurd h1 (by decide)
  · obtain ⟨n, hn, rfl⟩ := List.mem_map.mp hp
    exact hexFix_no_slash hc

theorem ip6Unpack_mid {b : Bytes} (m : Int) (pre post : Bytes) (h : b.length = 16) :
    ip6Unpack m (pre ++ b ++ post) pre.length =
      .ok (.ip6 (.str (joinC ':' ((chunks 2 8 b).map (hexFix 4)))) m) := by
  unfold ip6Unpack
  rw [slice_mid' pre b post (by omega)]
  simp [structUnpack, h]

theorem dec_ip6 (dflt) : Dec ip6Attr (Spec.ip6 dflt) false :=
  dec_raw (n := 16) (by decide) rfl fun b pre post hl =>
    ⟨_, ip6Unpack_mid 128 pre post hl, by
      simp only [Spec.ip6, ip6Read]
      rw [takeWhile_ne_self ip6Text_no_slash, groups_ip6 hl]; rfl, by simp⟩

/-! ## datapath ids -/

theorem dpidPackRaw_read {v b} (h : dpidRead v = some b) : dpidPackRaw v = .ok b ∧ b.length = 8 := by
  cases v <;> simp only [dpidRead, reduceCtorEq] at h
  case str s =>
    have hl := groups_length h
    rw [splitInts_groups] at h
    unfold dpidPackRaw
    cases hx : splitInts ':' 16 s with
    | none => rw [hx] at h; cases h
    | some xs =>
      rw [hx] at h
      simp only [Option.bind_some] at h
      simp [h, hl, hx]

theorem dpid_den_inv {v d} (h : Spec.dpid.den v = some d) :
    ∃ b, d = .raw b ∧ b.length = 8 ∧ dpidAttr.pack v = .ok b := by
  have key : ∀ x, (dpidRead x).map Data.raw = some d →
      ∃ b, d = .raw b ∧ b.length = 8 ∧ dpidPackRaw x = .ok b := by
    intro x hx
    cases hr : dpidRead x with
    | none => rw [hr] at hx; cases hx
    | some b =>
      rw [hr] at hx; cases hx
      exact ⟨b, rfl, (dpidPackRaw_read hr).2, (dpidPackRaw_read hr).1⟩
  cases v <;> exact key _ (by simpa only [Spec.dpid] using h)

theorem enc_dpid : Enc dpidAttr Spec.dpid :=
  enc_raw (n := 8) rfl (fun _ _ h => dpid_den_inv h) (fun _ => rfl) (fun _ => rfl)

theorem dpidLoop_mid (b : Bytes) : ∀ pre post : Bytes,
    dpidLoop (pre ++ b ++ post) b.length pre.length = .ok ((chunks 1 b.length b).map (hexFix 2)) := by
  induction b with
  | nil => intro pre post; simp [dpidLoop, chunks]
  | cons x b ih =>
    intro pre post
    have e : pre ++ x :: b ++ post = pre ++ [x] ++ (b ++ post) := by simp
    have e2 : pre ++ x :: b ++ post = (pre ++ [x]) ++ b ++ post := by simp
    have hs := slice_mid pre [x] (b ++ post)
    rw [← e] at hs
    have ih' := ih (pre ++ [x]) post
    rw [← e2] at ih'
    simp only [List.length_append, List.length_cons, List.length_nil, Nat.zero_add] at ih' hs
    simp only [List.length_cons, dpidLoop, hs]
    have e3 : structUnpack 1 1 [x] = some [beVal [x]] := by simp [structUnpack, chunks]
    rw [e3]
    simp only [ih']
    simp [chunks]

theorem groups_dpid {b : Bytes} (h : b.length = 8) :
    groups ':' 16 1 8 (joinC ':' ((chunks 1 8 b).map (hexFix 2))) = some b :=
  groups_join (by decide) (by omega)
    (fun n hn => ⟨pyInt_hexFix (by decide) (by simpa using hn), hexFix_no_colon⟩)

theorem dpidUnpack_mid {b : Bytes} (pre post : Bytes) (h : b.length = 8) :
    dpidUnpack (pre ++ b ++ post) pre.length =
      .ok (.dpid (.str (joinC ':' ((chunks 1 8 b).map (hexFix 2))))) := by
  have := dpidLoop_mid b pre post
  rw [h] at this
  simp only [dpidUnpack, this]

theorem dec_dpid : Dec dpidAttr Spec.dpid false :=
  dec_raw (n := 8) (by decide) rfl fun b pre post hl =>
    ⟨_, dpidUnpack_mid pre post hl, by simp [Spec.dpid, dpidRead, groups_dpid hl], by simp⟩

/-! ## text -/

theorem rstripNul_append_nuls (s : Str) (k : Nat) :
    rstripNul (s ++ List.replicate k (Char.ofNat 0)) = rstripNul s := by
  unfold rstripNul
  rw [List.reverse_append, List.reverse_replicate]
  congr 1
  induction k with
  | zero => simp
  | succ k ih => simp [List.replicate_succ, ih]

/-- `s` is `rstripNul s` followed by NULs. -/
theorem rstripNul_split (s : Str) : ∃ k, s = rstripNul s ++ List.replicate k (Char.ofNat 0) := by
  unfold rstripNul
  have key : ∀ r : Str, ∃ k, r = List.replicate k (Char.ofNat 0) ++ r.dropWhile (· = Char.ofNat 0) := by
    intro r
    induction r with
    | nil => exact ⟨0, rfl⟩
    | cons c r ih =>
      by_cases hc : c = Char.ofNat 0
      · obtain ⟨k, hk⟩ := ih
        refine ⟨k + 1, ?_⟩
        simp [hc, List.replicate_succ]
        exact hk
      · exact ⟨0, by simp [hc]⟩
  obtain ⟨k, hk⟩ := key s.reverse
  refine ⟨k, ?_⟩
  have := congrArg List.reverse hk
  simpa using this

theorem rstripNul_idem (s : Str) : rstripNul (rstripNul s) = rstripNul s := by
  obtain ⟨k, hk⟩ := rstripNul_split s
  have := rstripNul_append_nuls (rstripNul s) k
  rw [← hk] at this
  exact this.symm

def asciiByte (c : Char) : UInt8 := UInt8.ofNat c.toNat

theorem asciiByte_nul : asciiByte (Char.ofNat 0) = 0 := rfl

theorem asciiEncode_eq (s : Str) (h : ∀ c ∈ s, c.toNat < 128) : asciiEncode s = some (s.map asciiByte) := by
  unfold asciiEncode; rw [if_pos h]; rfl

theorem char_byte_char (c : Char) (h : c.toNat < 128) : Char.ofNat (asciiByte c).toNat = c := by
  have : (asciiByte c).toNat = c.toNat := by
    unfold asciiByte; simp only [UInt8.toNat_ofNat']; omega
  rw [this, Char.ofNat_toNat]

theorem asciiDecode_encode (s : Str) (h : ∀ c ∈ s, c.toNat < 128) :
    asciiDecode (s.map asciiByte) = some s := by
  unfold asciiDecode
  rw [if_pos]
  · rw [List.map_map]
    congr 1
    conv => rhs; rw [← List.map_id s]
    exact List.map_congr_left fun c hc => char_byte_char c (h c hc)
  · intro x hx
    obtain ⟨c, hc, rfl⟩ := List.mem_map.mp hx
    have := h c hc
    unfold asciiByte; simp only [UInt8.toNat_ofNat']; omega

/-- The bytes of a text field: the kept characters followed by NULs. -/
theorem charPackRaw_eq {n : Nat} {s : Str} (hn : 0 < n) (h : ∀ c ∈ s, c.toNat < 128) :
    charPackRaw n (.str s) =
      .ok ((s.take (n - 1)).map asciiByte ++ List.replicate (n - (s.take (n - 1)).length) 0) := by
  simp only [charPackRaw, asciiEncode_eq s h, Except.ok.injEq]
  apply List.ext_getElem
  · simp; omega
  · intro i h1 h2
    simp only [List.length_append, List.length_map, List.length_take, List.length_replicate] at h2
    by_cases hi : i < n - 1
    · rw [List.getElem_append_left (by simp; omega), List.getElem_dropLast, List.getElem_take]
      by_cases his : i < s.length
      · rw [List.getElem_append_left (by simpa using his), List.getElem_append_left (by simp; omega)]
        simp
      · rw [List.getElem_append_right (by simp; omega), List.getElem_append_right (by simp; omega)]
        simp
    · rw [List.getElem_append_right (by simp; omega), List.getElem_append_right (by simp; omega)]
      simp

theorem text_clip_bytes {n : Nat} {s : Str} (hn : 0 < n) :
    (s.take (n - 1)).map asciiByte ++ List.replicate (n - (s.take (n - 1)).length) (0 : UInt8) =
      (clip n s).map asciiByte ++ List.replicate (n - (clip n s).length) 0 := by
  unfold clip
  obtain ⟨k, hk⟩ := rstripNul_split (s.take (n - 1))
  generalize ht : s.take (n - 1) = t at hk ⊢
  have htl : t.length ≤ n - 1 := by rw [← ht, List.length_take]; omega
  generalize hr : rstripNul t = r at hk ⊢
  subst hk
  simp only [List.length_append, List.length_replicate] at htl
  rw [List.map_append, List.map_replicate, asciiByte_nul, List.append_assoc, List.replicate_append_replicate]
  congr 2
  simp; omega

theorem clip_props {n : Nat} {s : Str} (hn : 0 < n) :
    (clip n s).length < n ∧ rstripNul (clip n s) = clip n s ∧ (∀ c ∈ clip n s, c ∈ s) := by
  unfold clip
  obtain ⟨k, hk⟩ := rstripNul_split (s.take (n - 1))
  refine ⟨?_, rstripNul_idem _, ?_⟩
  · have := congrArg List.length hk
    simp [List.length_take] at this; omega
  · intro c hc
    have : c ∈ s.take (n - 1) := by rw [hk]; simp [hc]
    exact List.mem_of_mem_take this

/-- Content of a text value whose characters are all ASCII, or that `pack` refuses. -/
theorem charPack_enc {n : Nat} {s : Str} (hn : 0 < n) (h : ∀ c ∈ s, c.toNat < 128) :
    charPackRaw n (.str s) = .ok ((clip n s).map asciiByte ++ List.replicate (n - (clip n s).length) 0) := by
  rw [charPackRaw_eq hn h, text_clip_bytes hn]

theorem text_enc_eq {n : Nat} {s : Str} {b : Bytes} :
    (Spec.text n).enc (.text s) = some b ↔
      s.length < n ∧ (∀ c ∈ s, c.toNat < 128) ∧ rstripNul s = s ∧
        b = s.map asciiByte ++ List.replicate (n - s.length) 0 := by
  simp only [Spec.text]
  split
  · next h =>
    constructor
    · intro hb; cases hb; exact ⟨h.1, h.2.1, h.2.2, rfl⟩
    · rintro ⟨_, _, _, rfl⟩; rfl
  · next h =>
    constructor
    · intro hb; cases hb
    · rintro ⟨h1, h2, h3, _⟩; exact absurd ⟨h1, h2, h3⟩ h

theorem text_enc_inv {n d b} (h : (Spec.text n).enc d = some b) : ∃ s, d = .text s := by
  cases d <;> simp [Spec.text] at h
  exact ⟨_, rfl⟩

theorem text_den_inv {n : Nat} {v d} (h : (Spec.text n).den v = some d) :
    ∃ s, (∀ c ∈ s, c.toNat < 128) ∧ d = .text (clip n s) ∧ (charAttr n).pack v = charPackRaw n (.str s) := by
  cases v <;> simp only [Spec.text, reduceCtorEq] at h
  case str s =>
    split at h
    · next hs => cases h; exact ⟨s, hs, rfl, rfl⟩
    · cases h
  case chr x m =>
    cases x <;> simp only [reduceCtorEq] at h
    case str s =>
      split at h
      · next hs => cases h; obtain ⟨rfl, hs⟩ := hs; exact ⟨s, hs, rfl, rfl⟩
      · cases h

theorem enc_text {n : Nat} (hn : 0 < n) : Enc (charAttr n) (Spec.text n) where
  pack := by
    intro v d h b
    obtain ⟨s, hs, rfl, hp⟩ := text_den_inv h
    obtain ⟨h1, h2, h3⟩ := clip_props (s := s) hn
    rw [hp, charPack_enc hn hs, text_enc_eq]
    simp only [Except.ok.injEq]
    constructor
    · rintro rfl; exact ⟨h1, fun c hc => hs c (h3 c hc), h2, rfl⟩
    · rintro ⟨_, _, _, rfl⟩; rfl
  size := by
    intro v d b h hb
    obtain ⟨s, rfl⟩ := text_enc_inv hb
    obtain ⟨h1, _, _, rfl⟩ := text_enc_eq.mp hb
    simp [charAttr]; omega
  usize := by
    intro v d b _ h hb
    obtain ⟨s, rfl⟩ := text_enc_inv hb
    obtain ⟨h1, _, _, rfl⟩ := text_enc_eq.mp hb
    simp [charAttr]; omega

theorem dec_text {n : Nat} (hn : 0 < n) : Dec (charAttr n) (Spec.text n) false where
  unpack := by
    intro d b pre post he _ _ _
    obtain ⟨s, rfl⟩ := text_enc_inv he
    obtain ⟨h1, h2, h3, rfl⟩ := text_enc_eq.mp he
    refine ⟨.chr (.str s) n, ?_, ?_, by simp⟩
    · simp only [charAttr, charUnpack]
      rw [slice_mid' _ _ _ (by simp; omega)]
      rw [if_pos (by simp; omega)]
      have e : s.map asciiByte ++ List.replicate (n - s.length) 0 =
          (s ++ List.replicate (n - s.length) (Char.ofNat 0)).map asciiByte := by
        simp [asciiByte_nul]
      have hall : ∀ c ∈ s ++ List.replicate (n - s.length) (Char.ofNat 0), c.toNat < 128 := by
        intro c hc
        rcases List.mem_append.mp hc with hc | hc
        · exact h2 c hc
        · rw [(List.mem_replicate.mp hc).2]; decide
      rw [e, asciiDecode_encode _ hall]
      simp only [rstripNul_append_nuls, h3]
    · have : clip n s = s := by
        unfold clip; rw [List.take_of_length_le (by omega), h3]
      simp only [Spec.text, this]
      rw [if_pos ⟨trivial, h2⟩]
  empty := by
    intro d he
    obtain ⟨s, rfl⟩ := text_enc_inv he
    obtain ⟨h1, _, _, h4⟩ := text_enc_eq.mp he
    have := congrArg List.length h4
    simp at this; omega

theorem nonEmpty_text {n : Nat} : NonEmpty (Spec.text n) := by
  intro d he
  obtain ⟨s, rfl⟩ := text_enc_inv he
  obtain ⟨h1, _, _, h4⟩ := text_enc_eq.mp he
  have := congrArg List.length h4
  simp at this; omega

end Pyof
