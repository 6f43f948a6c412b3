import Verif.Proof.PadInj
import Verif.Spec.Fips180
import Verif.Spec.Fips202
import Verif.Spec.Md
import Verif.Spec.Ripemd
import Verif.Spec.Sm3
import Verif.Spec.Whirlpool
import Verif.Spec.Groestl
import Verif.Spec.Kupyna
import Verif.Spec.Jh
import Verif.Spec.Fsb
import Verif.Spec.Belt
import Verif.Spec.Skein
import Verif.Spec.Gost94
import Verif.Proof.Sponge
/- C28: every padding is a whole number of blocks, of the prescribed count, and injective. The functions below are the ones in
the specifications to which the digests of the model are proved equal (C06–C45). -/
namespace Hashes
open Spec Spec.Keccak

/-- Streebog's last block is the rest of the message, a byte 1 and zeros. -/
def Spec.streebogPad (m : Bytes) : Bytes := m ++ [1] ++ List.replicate (63 - m.length % 64) 0

/-- `Padded bs room pad`: an algorithm with `bs`-byte blocks pads with `pad`, needing at least `room` bytes after the message. -/
inductive Padded : Nat → Nat → (Bytes → Bytes) → Prop
  | sha1 : Padded 64 9 Spec.Sha1.pad
  | sha256 : Padded 64 9 Spec.Sha256.pad
  | sha512 : Padded 128 17 Spec.Sha512.pad
  | md2 : Padded 16 1 Spec.Md2.pad
  | md4 : Padded 64 9 Spec.Md4.pad
  | md5 : Padded 64 9 Spec.Md5.pad
  | ripemd : Padded 64 9 Spec.Ripemd.pad
  | sm3 : Padded 64 9 Spec.Sm3.pad
  | whirlpool : Padded 64 33 Spec.Whirlpool.pad
  | tiger : Padded 64 9 (fun m => mdPad 64 0x01 (leBytes 8 (8 * m.length)) m)
  | tiger2 : Padded 64 9 (fun m => mdPad 64 0x80 (leBytes 8 (8 * m.length)) m)
  | groestl512 : Padded 64 9 (Spec.Groestl.pad Spec.Groestl.p512)
  | groestl1024 : Padded 128 9 (Spec.Groestl.pad Spec.Groestl.p1024)
  | kupyna512 : Padded 64 13 (Spec.Kupyna.pad Spec.Kupyna.p512)
  | kupyna1024 : Padded 128 13 (Spec.Kupyna.pad Spec.Kupyna.p1024)
  | jh : Padded 64 64 Spec.Jh.pad
  | shabal : Padded 64 1 (mdPad 64 0x80 [])
  | streebog : Padded 64 1 Spec.streebogPad
  | ascon : Padded 8 1 (mdPad 8 0x01 [])
  | fsb (bs : Nat) (h : 9 ≤ bs) : Padded bs 9 (fun m => mdPad bs 0x80 (beBytes 8 (8 * m.length)) m)

/-- C28. The padded message has exactly one or two blocks more than the full blocks of the message: two when the rest of the
message and the required room do not fit in one block. -/
theorem C28_blocks {bs room : Nat} {pad : Bytes → Bytes} (h : Padded bs room pad) (m : Bytes) :
    (pad m).length = bs * (m.length / bs + if m.length % bs + room ≤ bs then 1 else 2) := by
  have md : ∀ (bs sl : Nat) (d : Byte) (s : Bytes), s.length = sl → 0 < bs → sl < bs → (mdPad bs d s m).length =
      bs * (m.length / bs + if m.length % bs + (1 + sl) ≤ bs then 1 else 2) := fun bs sl d s h1 h2 h3 => by
    subst h1
    rw [mdPad_blocks h2 h3, Nat.add_assoc]
  cases h with
  | sha1 => exact md 64 8 _ _ (by simp) (by decide) (by decide)
  | sha256 => exact md 64 8 _ _ (by simp) (by decide) (by decide)
  | sha512 => exact md 128 16 _ _ (by simp) (by decide) (by decide)
  | md2 =>
    have := Nat.mod_lt m.length (show 0 < 16 by decide)
    rw [if_pos (by omega)]
    simp only [Spec.Md2.pad, List.length_append, List.length_replicate]
    omega
  | md4 => exact md 64 8 _ _ (by simp) (by decide) (by decide)
  | md5 => exact md 64 8 _ _ (by simp) (by decide) (by decide)
  | ripemd => exact md 64 8 _ _ (by simp) (by decide) (by decide)
  | sm3 => exact md 64 8 _ _ (by simp) (by decide) (by decide)
  | whirlpool => exact md 64 32 _ _ (by simp) (by decide) (by decide)
  | tiger => exact md 64 8 _ _ (by simp) (by decide) (by decide)
  | tiger2 => exact md 64 8 _ _ (by simp) (by decide) (by decide)
  | groestl512 => exact md 64 8 _ _ (by simp) (by decide) (by decide)
  | groestl1024 => exact md 128 8 _ _ (by simp) (by decide) (by decide)
  | kupyna512 => exact md 64 12 _ _ (by simp) (by decide) (by decide)
  | kupyna1024 => exact md 128 12 _ _ (by simp) (by decide) (by decide)
  | jh =>
    simp only [Spec.Jh.pad, List.length_append, List.length_replicate, List.length_cons, List.length_nil, length_beBytes]
    split <;> omega
  | shabal => exact md 64 0 _ _ rfl (by decide) (by decide)
  | streebog =>
    simp only [Spec.streebogPad, List.length_append, List.length_replicate, List.length_cons, List.length_nil]
    rw [if_pos (by omega)]
    omega
  | ascon => exact md 8 0 _ _ rfl (by decide) (by decide)
  | fsb bs h => exact md bs 8 _ _ (by simp) (by omega) (by omega)

/-- C28. No two messages have the same padded form (of any lengths: the delimiter alone makes the padding injective). -/
theorem C28_injective {bs room : Nat} {pad : Bytes → Bytes} (h : Padded bs room pad) (m m' : Bytes) (e : pad m = pad m') :
    m = m' := by
  cases h with
  | sha1 => exact mdPad_inj (by decide) (by simp) e
  | sha256 => exact mdPad_inj (by decide) (by simp) e
  | sha512 => exact mdPad_inj (by decide) (by simp) e
  | md2 =>
    simp only [Spec.Md2.pad] at e
    have hl := congrArg List.length e
    simp only [List.length_append, List.length_replicate] at hl
    have hlast : ∀ m : Bytes, (m ++ List.replicate (16 - m.length % 16) (BitVec.ofNat 8 (16 - m.length % 16))).getLast? =
        some (BitVec.ofNat 8 (16 - m.length % 16)) := by
      intro m
      have := Nat.mod_lt m.length (show 0 < 16 by decide)
      rw [List.getLast?_append, List.getLast?_replicate, if_neg (by omega)]
      rfl
    have h1 := hlast m
    rw [e, hlast m'] at h1
    have h2 := congrArg BitVec.toNat (Option.some.inj h1)
    rw [BitVec.toNat_ofNat, BitVec.toNat_ofNat] at h2
    exact (List.append_inj e (by omega)).1
  | md4 => exact mdPad_inj (by decide) (by simp) e
  | md5 => exact mdPad_inj (by decide) (by simp) e
  | ripemd => exact mdPad_inj (by decide) (by simp) e
  | sm3 => exact mdPad_inj (by decide) (by simp) e
  | whirlpool => exact mdPad_inj (by decide) (by simp) e
  | tiger => exact mdPad_inj (by decide) (by simp) e
  | tiger2 => exact mdPad_inj (by decide) (by simp) e
  | groestl512 => exact mdPad_inj (by decide) (by simp) e
  | groestl1024 => exact mdPad_inj (by decide) (by simp) e
  | kupyna512 => exact mdPad_inj (by decide) (by simp) e
  | kupyna1024 => exact mdPad_inj (by decide) (by simp) e
  | jh => exact (delim_inj (d := (0x80 : Byte)) (z := 0) (by decide) (by decide) (by simp) e).1
  | shabal => exact mdPad_inj (by decide) rfl e
  | streebog => exact (delim_inj (d := (1 : Byte)) (d' := 1) (z := 0) (t := []) (t' := []) (by decide) (by decide) rfl (by simpa [Spec.streebogPad] using e)).1
  | ascon => exact mdPad_inj (by decide) rfl e
  | fsb bs h => exact mdPad_inj (by decide) (by simp) e

/-- C28. The message is kept unchanged in front of the padding. -/
theorem C28_prefix {bs room : Nat} {pad : Bytes → Bytes} (h : Padded bs room pad) (m : Bytes) : (pad m).take m.length = m := by
  have t : ∀ x : Bytes, (m ++ x).take m.length = m := fun x => List.take_left
  cases h <;> simp only [Spec.Sha1.pad, Spec.Sha256.pad, Spec.Sha512.pad, Spec.Md2.pad, Spec.Md4.pad, Spec.Md5.pad,
    Spec.Ripemd.pad, Spec.Sm3.pad, Spec.Whirlpool.pad, Spec.Groestl.pad, Spec.Kupyna.pad, Spec.Jh.pad, Spec.streebogPad,
    mdPad, List.append_assoc, t]

/-- Concrete cases: lengths 55 and 56 straddle the boundary; MD2 and JH add a full block to an aligned message. -/
example : (Spec.Sha256.pad (List.replicate 55 7)).length = 64 ∧ (Spec.Sha256.pad (List.replicate 56 7)).length = 128 ∧
    Spec.Md2.pad (List.replicate 16 7) = List.replicate 16 7 ++ List.replicate 16 16 ∧
    (Spec.Jh.pad (List.replicate 64 7)).length = 128 ∧ (Spec.Jh.pad (List.replicate 65 7)).length = 192 := by decide +kernel

/-! ### Sponges -/

/-- C28, SHA-3 and Keccak: whole rate blocks, one or two extra. -/
theorem C28_sponge_blocks (r : Nat) (hr : 2 ≤ r) (N : List Bool) :
    (N ++ pad101 r N.length).length = r * (N.length / r + if N.length % r + 2 ≤ r then 1 else 2) := by
  have h1 := Nat.mod_lt N.length (show 0 < r by omega)
  have h2 := Nat.div_add_mod N.length r
  have hm : (N.length + 2) % r = (N.length % r + 2) % r := by rw [Nat.mod_add_mod]
  simp only [pad101, List.length_append, List.length_replicate, List.length_cons, List.length_nil, hm]
  rw [Nat.mul_add]
  by_cases hle : N.length % r + 2 ≤ r
  · rw [if_pos hle]
    by_cases he : N.length % r + 2 = r
    · rw [he, Nat.mod_self, Nat.sub_zero, Nat.mod_self]; omega
    · rw [Nat.mod_eq_of_lt (a := N.length % r + 2) (by omega), Nat.mod_eq_of_lt (by omega)]; omega
  · rw [if_neg hle, Nat.mod_eq_sub_mod (a := N.length % r + 2) (by omega), Nat.mod_eq_of_lt (a := N.length % r + 2 - r) (by omega),
      ]
    by_cases hz : N.length % r + 2 - r = 0
    · omega
    · rw [Nat.mod_eq_of_lt (by omega)]; omega

/-- C28, SHA-3 and Keccak: the padded bit string determines the bit string. -/
theorem C28_sponge_injective (r : Nat) (N N' : List Bool) (h : N ++ pad101 r N.length = N' ++ pad101 r N'.length) : N = N' := by
  simp only [pad101, ← List.append_assoc] at h
  exact (delim_inj (d := true) (z := false) (by decide) (by decide) rfl h).1

/-! ### Domain separation of the sponges (code level) -/

/-- Clearing the top bit of the last byte. -/
theorem Sha3.finish_clear {D : Byte} (hD : D.toNat < 128) (m : Bytes) (n : Nat) :
    ∃ q, m ++ Sha3.finish D (n + 1) = q ++ [(m ++ [D] ++ List.replicate n 0).getLastD 0 ||| 0x80] ∧
      m ++ [D] ++ List.replicate n 0 = q ++ [(m ++ [D] ++ List.replicate n 0).getLastD 0] ∧
      ((m ++ [D] ++ List.replicate n 0).getLastD 0).toNat < 128 := by
  cases n with
  | zero => exact ⟨m, by simp [Sha3.finish], by simp, by simpa using hD⟩
  | succ n =>
    have hl : ((m ++ [D] ++ List.replicate (n + 1) (0 : Byte)).getLastD 0) = 0 := by
      rw [List.replicate_succ', ← List.append_assoc, List.getLastD_concat]
    rw [hl]
    exact ⟨m ++ [D] ++ List.replicate n 0, by simp [Sha3.finish], by rw [List.replicate_succ', ← List.append_assoc], by decide⟩

/-- C51. The blocks absorbed by the code — those of `update_blocks` followed by the last block written by the finalization —
determine both the message and the separation byte: two sponges of the same rate with different separation bytes (Keccak 0x01,
cSHAKE 0x04, SHA-3 0x06, SHAKE 0x1f, TurboSHAKE any 0x01–0x7f) never absorb the same input. -/
theorem C51_domain (rate : Nat) (D D' : Byte) (hD : 0x01 ≤ D ∧ D ≤ 0x7F) (hD' : 0x01 ≤ D' ∧ D' ≤ 0x7F) (m m' : Bytes)
    (b b' : BlockBuffer) (wf : b.WF .eager rate) (wf' : b'.WF .eager rate)
    (hb : b.content = m.drop (m.length / rate * rate)) (hb' : b'.content = m'.drop (m'.length / rate * rate))
    (h : blocks rate (m.length / rate) m ++ [Sha3.lastBlock rate b D] =
      blocks rate (m'.length / rate) m' ++ [Sha3.lastBlock rate b' D']) : m = m' ∧ D = D' := by
  have r : ∀ D : Byte, 0x01 ≤ D ∧ D ≤ 0x7F → D.toNat < 128 ∧ D ≠ 0 := by decide +kernel
  have flat : ∀ (m : Bytes) (b : BlockBuffer) (D : Byte), b.WF .eager rate → b.content = m.drop (m.length / rate * rate) →
      ∃ n, (blocks rate (m.length / rate) m ++ [Sha3.lastBlock rate b D]).flatten = m ++ Sha3.finish D (n + 1) := by
    intro m b D wf hb
    refine ⟨rate - b.pos - 1, ?_⟩
    have : b.pos < rate := wf.2
    rw [List.flatten_append, flatten_blocks, List.flatten_singleton, Sha3.lastBlock_eq wf, ← List.append_assoc, hb,
      List.take_append_drop, show rate - b.pos - 1 + 1 = rate - b.pos by omega]
  obtain ⟨n, hn⟩ := flat m b D wf hb
  obtain ⟨n', hn'⟩ := flat m' b' D' wf' hb'
  have e := congrArg List.flatten h
  rw [hn, hn'] at e
  obtain ⟨q, h1, h2, h3⟩ := Sha3.finish_clear (r D hD).1 m n
  obtain ⟨q', h1', h2', h3'⟩ := Sha3.finish_clear (r D' hD').1 m' n'
  rw [h1, h1'] at e
  obtain ⟨eq, el⟩ := List.append_inj' e rfl
  have cl : ∀ x y : Byte, x.toNat < 128 → y.toNat < 128 → x ||| 0x80 = y ||| 0x80 → x = y := by decide +kernel
  have el := cl _ _ h3 h3' (by simpa using el)
  have fin : m ++ [D] ++ List.replicate n 0 = m' ++ [D'] ++ List.replicate n' 0 := by rw [h2, h2', eq, el]
  have := delim_inj (t := []) (t' := []) (r D hD).2 (r D' hD').2 rfl (by simpa using fin)
  exact ⟨this.1, this.2.1⟩

/-- Concrete case: the empty message under SHA3-256's and SHAKE256's separation bytes. -/
example : Sha3.lastBlock 136 (BlockBuffer.empty 136) 0x06 = [0x06] ++ List.replicate 134 0 ++ [0x80] ∧
    Sha3.lastBlock 136 (BlockBuffer.empty 136) 0x1f ≠ Sha3.lastBlock 136 (BlockBuffer.empty 136) 0x06 := by decide +kernel

/-! ### cSHAKE encodings -/

theorem Spec.digits256_le : ∀ (fuel x : Nat), x < 256 ^ fuel → x < 256 ^ digits256 fuel x := by
  intro fuel
  induction fuel with
  | zero => intro x h; simpa [digits256] using h
  | succ f ih =>
    intro x h
    rw [digits256]
    by_cases h0 : x = 0
    · simp [h0]
    · rw [if_neg h0]
      have := ih (x / 256) (by rw [Nat.pow_succ] at h; omega)
      rw [Nat.add_comm, Nat.pow_succ]
      omega

theorem Spec.digits256_bound : ∀ (k fuel x : Nat), x < 256 ^ k → digits256 fuel x ≤ k := by
  intro k
  induction k with
  | zero => intro fuel x h; cases fuel <;> simp_all [digits256]
  | succ k ih =>
    intro fuel x h
    cases fuel with
    | zero => simp [digits256]
    | succ f =>
      rw [digits256]
      split
      · omega
      · have := ih f (x / 256) (by rw [Nat.pow_succ] at h; omega)
        omega

theorem Spec.lt_pow256 (x : Nat) : x < 256 ^ x := Nat.lt_pow_self (by decide)

/-- `left_encode` is uniquely decodable from the front (for values below 2^2040). -/
theorem leftEncode_inj {x y : Nat} (hx : x < 256 ^ 255) (hy : y < 256 ^ 255) {a b : Bytes}
    (h : leftEncode x ++ a = leftEncode y ++ b) : x = y ∧ a = b := by
  simp only [leftEncode, List.cons_append, List.cons.injEq] at h
  obtain ⟨h1, h2⟩ := h
  have bx := digits256_bound 255 x x hx
  have by' := digits256_bound 255 y y hy
  have e : max 1 (digits256 x x) = max 1 (digits256 y y) := by
    have := congrArg BitVec.toNat h1
    rw [BitVec.toNat_ofNat, BitVec.toNat_ofNat] at this
    omega
  rw [e] at h2
  obtain ⟨h3, h4⟩ := List.append_inj h2 (by simp)
  have h5 := beBytes_inj h3
  have lx : x < 256 ^ max 1 (digits256 y y) := by
    rw [← e]
    exact Nat.lt_of_lt_of_le (digits256_le x x (lt_pow256 x)) (Nat.pow_le_pow_right (by decide) (Nat.le_max_right ..))
  have ly : y < 256 ^ max 1 (digits256 y y) :=
    Nat.lt_of_lt_of_le (digits256_le y y (lt_pow256 y)) (Nat.pow_le_pow_right (by decide) (Nat.le_max_right ..))
  rw [Nat.mod_eq_of_lt lx, Nat.mod_eq_of_lt ly] at h5
  exact ⟨h5, h4⟩

theorem encodeString_inj {s t : Bytes} (hs : 8 * s.length < 256 ^ 255) (ht : 8 * t.length < 256 ^ 255) {a b : Bytes}
    (h : encodeString s ++ a = encodeString t ++ b) : s = t ∧ a = b := by
  simp only [encodeString, List.append_assoc] at h
  obtain ⟨h1, h2⟩ := leftEncode_inj hs ht h
  exact List.append_inj h2 (by omega)

/-- C28, cSHAKE: function name, customization and message are determined by the absorbed string. -/
theorem C28_cshake (w : Nat) (hw : w < 256 ^ 255) (N S x N' S' x' : Bytes)
    (hN : 8 * N.length < 256 ^ 255) (hS : 8 * S.length < 256 ^ 255) (hN' : 8 * N'.length < 256 ^ 255) (hS' : 8 * S'.length < 256 ^ 255)
    (h : bytepad (encodeString N ++ encodeString S) w ++ x = bytepad (encodeString N' ++ encodeString S') w ++ x') :
    N = N' ∧ S = S' ∧ x = x' := by
  simp only [bytepad, List.append_assoc] at h
  obtain ⟨_, h⟩ := leftEncode_inj hw hw h
  obtain ⟨rfl, h⟩ := encodeString_inj hN hN' h
  obtain ⟨rfl, h⟩ := encodeString_inj hS hS' h
  exact ⟨rfl, rfl, List.append_cancel_left h⟩

/-- Concrete case: moving a byte from the name to the customization changes the encoding. -/
example : bytepad (encodeString [1, 2] ++ encodeString [3]) 168 ≠ bytepad (encodeString [1] ++ encodeString [2, 3]) 168 := by
  decide +kernel

/-! ### Zero-padded algorithms: the length is absorbed separately -/

/-- C28, BelT: whole 32-byte blocks; the blocks and the length determine the message. -/
theorem C28_belt (m m' : Bytes) : 32 ∣ (Spec.Belt.pad m).length ∧
    (Spec.Belt.pad m = Spec.Belt.pad m' → m.length = m'.length → m = m') := by
  refine ⟨?_, fun h hl => (List.append_inj h hl).1⟩
  simp only [Spec.Belt.pad, List.length_append, List.length_replicate]
  omega

/-- The blocks alone do not (as for every zero-padded algorithm). -/
example : Spec.Belt.pad [1] = Spec.Belt.pad [1, 0] := by decide

/-- C28, Skein: the UBI blocks and the length (absorbed in the tweak) determine the message. -/
theorem C28_skein (nb : Nat) (hb : 0 < nb) (m m' : Bytes) (hl : m.length = m'.length)
    (h : ∀ i < Spec.Skein.nBlocks nb m.length, Spec.Skein.blockAt nb m i = Spec.Skein.blockAt nb m' i) : m = m' := by
  refine List.ext_getElem hl fun i h1 h2 => ?_
  have hi : i / nb < Spec.Skein.nBlocks nb m.length := by
    refine Nat.lt_of_lt_of_le ?_ (Nat.le_max_right ..)
    rw [Nat.div_lt_iff_lt_mul hb]
    have := Nat.div_add_mod (m.length + nb - 1) nb
    have := Nat.mod_lt (m.length + nb - 1) hb
    rw [Nat.mul_comm]; omega
  have key : ∀ m : Bytes, (hi : i < m.length) → (Spec.Skein.blockAt nb m (i / nb))[i % nb]? = some m[i] := by
    intro m hi
    have := Nat.mod_lt i hb
    have hd := Nat.div_add_mod i nb
    rw [Nat.mul_comm] at hd
    simp only [Spec.Skein.blockAt]
    rw [List.getElem?_append_left (by simp; omega), List.getElem?_take, if_pos this, List.getElem?_drop, hd]
    exact List.getElem?_eq_getElem hi
  have e := key m h1
  rw [h _ hi, key m' h2] at e
  exact (Option.some.inj e).symm

/-- C28, GOST R 34.11-94: the block vectors and the length determine the message. -/
theorem C28_gost94 (m m' : Bytes) (hl : m.length = m'.length)
    (h : (Spec.Gost94.split m).map Spec.Gost94.vec = (Spec.Gost94.split m').map Spec.Gost94.vec) : m = m' := by
  have key : ∀ (x y : List Bytes), x.map List.length = y.map List.length → (∀ b ∈ x, b.length ≤ 32) →
      x.map Spec.Gost94.vec = y.map Spec.Gost94.vec → x = y := by
    intro x
    induction x with
    | nil => intro y _ _ h; cases y with
      | nil => rfl
      | cons => simp at h
    | cons a x ih =>
      intro y hl h32 h
      cases y with
      | nil => simp at h
      | cons b y =>
        simp only [List.map_cons, List.cons.injEq] at hl h
        have ha := h32 a (by simp)
        rw [ih y hl.2 (fun b hb => h32 b (by simp [hb])) h.2]
        have e := congrArg BitVec.toNat h.1
        simp only [Spec.Gost94.vec, BitVec.toNat_ofNat] at e
        have la := ofLE_lt a
        have lb := ofLE_lt b
        have p : 256 ^ a.length ≤ 2 ^ 256 := by
          rw [show (2 : Nat) ^ 256 = 256 ^ 32 by decide]; exact Nat.pow_le_pow_right (by decide) ha
        rw [← hl.1] at lb
        rw [Nat.mod_eq_of_lt (by omega), Nat.mod_eq_of_lt (by omega)] at e
        rw [← leBytes_ofLE a, e, hl.1, leBytes_ofLE]
  have flat : ∀ m : Bytes, (Spec.Gost94.split m).flatten = m := by
    intro m
    rw [Spec.Gost94.split, List.flatten_append, flatten_blocks, Nat.mul_comm]
    split
    · rename_i h0
      rw [List.flatten_nil, List.append_nil, List.take_of_length_le (by omega)]
    · simp
  have lens : ∀ m : Bytes, (Spec.Gost94.split m).map List.length =
      List.replicate (m.length / 32) 32 ++ if m.length % 32 = 0 then [] else [m.length % 32] := by
    intro m
    have hb : (blocks 32 (m.length / 32) m).map List.length = List.replicate (m.length / 32) 32 := by
      refine List.eq_replicate_of_mem (a := 32) ?_ |>.trans (by simp [length_blocks])
      intro n hn
      obtain ⟨b, hb, rfl⟩ := List.mem_map.1 hn
      exact length_of_mem_chunks (n := 32) (l := m) hb
    rw [Spec.Gost94.split, List.map_append, hb]
    split
    · rfl
    · simp; omega
  have e := key _ _ (by rw [lens, lens, hl]) (fun b hb => by
    have : b.length ∈ (Spec.Gost94.split m).map List.length := List.mem_map_of_mem hb
    rw [lens] at this
    rcases List.mem_append.1 this with h | h
    · rw [List.eq_of_mem_replicate h]; decide
    · split at h
      · cases h
      · simp at h; omega) h
  rw [← flat m, e, flat]

end Hashes
