import Verif.Proof.Rust
import Verif.Proof.BlockBuffer
import Verif.Checked.Belt
/- The checked transcription of BelT hash never panics and agrees with the model. -/
namespace Hashes.Belt
open Rs

/-- The arrays of a state. -/
def State.toC (s : State) : StateC := ⟨s.r, s.s.toList, s.h.toList⟩

/-- `E` on arrays is `E'` on tuples. -/
def IsCipher (E : CipherC) (E' : Cipher) : Prop := ∀ b k, E b.toList k.toList = (E' b k).toList

variable {E : CipherC} {E' : Cipher} (hE : IsCipher E E')

theorem xorC_eq (a b : V4 W32) : xorC a.toList b.toList = some (xor a b).toList := rfl

theorem concatC_eq (a b : V4 W32) : concatC a.toList b.toList = some (concat a b).toList := rfl

include hE in
theorem beltCompressC_eq (x1 x2 : V4 W32) (x34 : V8 W32) :
    beltCompressC E x1.toList x2.toList x34.toList =
      some ((beltCompress E' x1 x2 x34).1.toList, (beltCompress E' x1 x2 x34).2.toList) := by
  let x3 : V4 W32 := ⟨x34.x0, x34.x1, x34.x2, x34.x3⟩
  let x4 : V4 W32 := ⟨x34.x4, x34.x5, x34.x6, x34.x7⟩
  refine bind_ok rfl <| bind_ok rfl <| bind_ok rfl <| bind_ok rfl <| bind_ok rfl <| bind_ok rfl <| bind_ok rfl <| bind_ok rfl <|
    bind_ok (xorC_eq x3 x4) <| bind_ok (concatC_eq x1 x2) <|
    bind_ok ((congrArg (xorC · _) (hE _ _)).trans (xorC_eq _ x3)) <| bind_ok (xorC_eq _ x4) <| bind_ok (concatC_eq _ x4) <|
    bind_ok ((congrArg (xorC · _) (hE _ _)).trans (xorC_eq _ x1)) <| bind_ok (concatC_eq (V4.map _ _) x3) <|
    bind_ok ((congrArg (xorC · _) (hE _ _)).trans (xorC_eq _ x2)) <| bind_ok (concatC_eq _ _) rfl

theorem getU32C_eq {block : Bytes} (hb : block.length = 32) {i : Nat} (hi : i < 8) : getU32C block i = some (getU32 block i) := by
  have e : ((((block.drop (4 * i)).take (block.length - 4 * i)).drop 0).take (4 - 0)) = (block.drop (4 * i)).take 4 := by
    rw [List.drop_zero, List.take_of_length_le (l := block.drop _) (by simp)]
  refine bind_ok (slice_le (by omega) (by omega)) <| bind_ok (slice_le (by omega) (by simp; omega)) ?_
  rw [e, fromLe, if_pos (by simp; omega)]
  rfl

include hE in
theorem compressBlockC_eq (st : State) {block : Bytes} (hb : block.length = 32) :
    compressBlockC E st.toC block = some (compressBlock E' st block).toC := by
  refine bind_ok (getU32C_eq hb (by decide)) <| bind_ok (getU32C_eq hb (by decide)) <| bind_ok (getU32C_eq hb (by decide)) <|
    bind_ok (getU32C_eq hb (by decide)) <| bind_ok (getU32C_eq hb (by decide)) <| bind_ok (getU32C_eq hb (by decide)) <|
    bind_ok (getU32C_eq hb (by decide)) <| bind_ok (getU32C_eq hb (by decide)) <|
    bind_ok (beltCompressC_eq hE ⟨_, _, _, _⟩ ⟨_, _, _, _⟩ st.h) ?_
  have e (r : V4 W32 × V8 W32) : (pure { st.toC with s := st.toC.s.zipWith (· ^^^ ·) r.1.toList, h := r.2.toList } : Option StateC) =
      some (⟨st.r, xor st.s r.1, r.2⟩ : State).toC := rfl
  exact e _

theorem encodeRC_eq (r : W128) : encodeRC r = some (encodeR r).toList := rfl

include hE in
theorem finalizeC_eq (st : State) {buffer : BlockBuffer} (hw : buffer.WF .eager 32) {out : Bytes} (ho : out.length = 32)
    (hr : 8 * (32 * st.r.toNat + buffer.pos) < 2 ^ 128) : finalizeC E st.toC buffer out = some (finalize E' st buffer) := by
  have hl : lastBlockC E st.toC buffer =
      some (if buffer.pos ≠ 0 then compressBlock E' st (buffer.padWithZeros 32).1 else st).toC := by
    rw [lastBlockC]
    split
    · refine compressBlockC_eq hE st ?_
      have := hw.2
      simp [BlockBuffer.padWithZeros, hw.1]
      simp at this; omega
    · rfl
  have hr' : (if buffer.pos ≠ 0 then compressBlock E' st (buffer.padWithZeros 32).1 else st).r = st.r := by
    split <;> rfl
  rw [finalize, finalizeC]
  refine bind_ok hl ?_
  generalize (if buffer.pos ≠ 0 then compressBlock E' st (buffer.padWithZeros 32).1 else st) = t at hr'
  obtain ⟨r, s, h⟩ := t
  obtain rfl : r = st.r := hr'
  have h1 : (32 * st.r : W128).toNat = 32 * st.r.toNat := by
    rw [BitVec.toNat_mul]; exact Nat.mod_eq_of_lt (by show 32 * _ < _; omega)
  have h2 : (32 * st.r + BitVec.ofNat 128 buffer.pos : W128).toNat = 32 * st.r.toNat + buffer.pos := by
    rw [BitVec.toNat_add, h1, BitVec.toNat_ofNat, Nat.mod_eq_of_lt (a := buffer.pos) (by omega)]
    exact Nat.mod_eq_of_lt (by omega)
  refine bind_ok (if_pos (show 32 * st.r.toNat < _ by omega)) <| bind_ok (if_pos ?_) <| bind_ok (if_pos ?_) <|
    bind_ok (encodeRC_eq _) <| bind_ok (beltCompressC_eq hE ..) <| store_eq (n := 8) (by decide) rfl ho fun x => by simp
  · show (32 * st.r : W128).toNat + _ < _
    rw [h1, BitVec.toNat_ofNat, Nat.mod_eq_of_lt (a := buffer.pos) (by omega)]; omega
  · show 8 * (32 * st.r + BitVec.ofNat 128 buffer.pos : W128).toNat < _
    rw [h2]; exact hr

end Hashes.Belt
