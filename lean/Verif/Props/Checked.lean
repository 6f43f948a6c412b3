import Verif.Proof.Checked.Md2
import Verif.Proof.Checked.Gost94
import Verif.Proof.Checked.Whirlpool
import Verif.Proof.Checked.Streebog
import Verif.Proof.Checked.Groestl
import Verif.Proof.Checked.Kupyna
import Verif.Proof.Checked.Tiger
import Verif.Proof.Checked.Sm3
import Verif.Proof.Checked.Shabal
import Verif.Proof.Checked.Belt
import Verif.Proof.Checked.K12
import Verif.Proof.Checked.Sha1Checked
import Verif.Proof.Checked.Blake2
import Verif.Proof.Checked.Ascon
import Verif.Proof.Checked.Keccak
import Verif.Proof.Checked.Skein
/-
C60: no run-time check of Rust is ever hit. The programs in Verif/Checked are the block functions written statement by statement,
where every index, slice, `copy_from_slice`, `try_into().unwrap()`, subtraction of `usize`, shift, unchecked arithmetic operator
and debug assertion gives `none` when Rust would panic.  Each theorem says that for every chaining value and every list of blocks
of the right length the result is `some`, and is the chaining value of the model.
-/
namespace Hashes
open Rs

/-- Blocks of `n` bytes. -/
def BlocksOf (n : Nat) (l : List Bytes) : Prop := ∀ b ∈ l, b.length = n

theorem foldlM_image {σ τ : Type} (toC : σ → τ) (I : σ → Prop) {f : τ → Bytes → Option τ} (g : σ → Bytes → σ) {n : Nat}
    (h : ∀ s b, I s → b.length = n → f (toC s) b = some (toC (g s b)) ∧ I (g s b)) (l : List Bytes) (hl : BlocksOf n l) (s : σ)
    (hs : I s) : l.foldlM f (toC s) = some (toC (l.foldl g s)) := by
  induction l generalizing s with
  | nil => rfl
  | cons b l ih =>
    rw [List.foldlM_cons]
    obtain ⟨h1, h2⟩ := h s b hs (hl b List.mem_cons_self)
    exact bind_ok h1 (ih (fun c hc => hl c (List.mem_cons_of_mem _ hc)) _ h2)

/-- C60 (MD2). -/
theorem C60_md2 (st : Md2.State) (hx : st.x.length = 48) (hc : st.checksum.length = 16) :
    (∀ l, BlocksOf 16 l → l.foldlM Md2.compressC st = some (l.foldl Md2.compress st)) ∧
    (∀ buffer : BlockBuffer, buffer.WF .eager 16 → Md2.finalizeC st buffer = some (Md2.finalize st buffer)) :=
  ⟨fun l hl => foldlM_image id (fun t => t.x.length = 48 ∧ t.checksum.length = 16) Md2.compress
    (fun _ _ ht hb => ⟨Md2.compressC_eq ht.1 ht.2 hb, Md2.compress_lengths ht.1 ht.2 hb⟩) l hl st ⟨hx, hc⟩,
    fun _ wf => Md2.finalizeC_eq hx hc wf⟩

/-- C60 (GOST R 34.11-94), for every S-box with four-bit entries. -/
theorem C60_gost94 (sb : List (List Byte)) (hb : Gost94.IsBox sb) (s : Gost94.State) (hs : s.h.length = 32) :
    (∀ l, BlocksOf 32 l → l.foldlM (Gost94.compressC sb) s.toC = some (l.foldl (Gost94.compress sb) s).toC) ∧
    (∀ len, Gost94.updateNC s.n.toList len = some (Gost94.updateN s.n len).toList) ∧
    (∀ (buffer : BlockBuffer) (out : Bytes), buffer.WF .eager 32 → out.length = 32 →
      Gost94.finalizeC sb s.toC buffer out = some (Gost94.finalize sb s buffer)) := by
  exact ⟨fun l hl => foldlM_image Gost94.State.toC (fun s => s.h.length = 32) _
    (fun _ _ hs h => ⟨Gost94.compressC_eq hb hs h, Gost94.length_f ..⟩) l hl s hs, Gost94.updateNC_eq _,
    fun _ _ hw ho => Gost94.finalizeC_eq hb hs hw ho⟩

/-- The four S-boxes of the crate have four-bit entries. -/
theorem C60_gost94_boxes : Gost94.IsBox Gost94.cryptoProBox ∧ Gost94.IsBox Gost94.s2015Box ∧ Gost94.IsBox Gost94.testBox ∧
    Gost94.IsBox Gost94.uaBox := by
  unfold Gost94.IsBox
  decide +kernel

/-- The hypothesis is needed: `Gost94Params` is a public trait, and an S-box with an entry of 16 in its last row makes
`v += u32::from(s[i][k]) << shft` overflow. -/
theorem C60_gost94_user_box : ∃ sb : List (List Byte), sb.length = 8 ∧ (∀ r ∈ sb, r.length = 16) ∧ ¬ Gost94.IsBox sb ∧
    Gost94.sboxC 0 sb = none ∧ Gost94.compressC sb (Gost94.init Gost94.H0).toC (List.replicate 32 0) = none :=
  ⟨List.replicate 8 (List.replicate 16 0xff), by decide, by decide, by unfold Gost94.IsBox; decide, by decide +kernel,
    by decide +kernel⟩

/-- C60 (Whirlpool). -/
theorem C60_whirlpool (state : V8 W64) :
    (∀ l, BlocksOf 64 l → l.foldlM Whirlpool.compressC state.toList = some (l.foldl Whirlpool.compress state).toList) ∧
    (∀ (bitLen : V4 W64) (len : W64), Whirlpool.updateLenC bitLen.toList len = some (Whirlpool.updateLen bitLen len).toList) :=
  ⟨fun l hl => foldlM_image V8.toList (fun _ => True) _ (fun s _ _ h => ⟨Whirlpool.compressC_eq s h, trivial⟩) l hl state trivial, Whirlpool.updateLenC_eq⟩

/-- C60 (Streebog). -/
theorem C60_streebog (s : Streebog.State) :
    (∀ l, BlocksOf 64 l → l.foldlM (fun (t : List W64 × List W64 × List W64) b => Streebog.compressC t.1 t.2.1 t.2.2 b 64)
        (s.h.toList, s.n.toList, s.sigma.toList) =
      some ((Streebog.updateBlocks s l).h.toList, (Streebog.updateBlocks s l).n.toList, (Streebog.updateBlocks s l).sigma.toList)) ∧
    (∀ (buffer : BlockBuffer) (out : Bytes), buffer.WF .eager 64 → out.length = 64 →
      Streebog.finalizeC s.h.toList s.n.toList s.sigma.toList buffer out = some (Streebog.finalizeFull s buffer)) :=
  ⟨fun l hl => foldlM_image (fun (s : Streebog.State) => (s.h.toList, s.n.toList, s.sigma.toList)) (fun _ => True)
    (fun s b => Streebog.compress s b 64) (fun s _ _ h => ⟨Streebog.compressC_eq s h (by decide), trivial⟩) l hl s trivial,
    fun _ _ hw ho => Streebog.finalizeC_eq s hw ho⟩

theorem groestl_checked (g : Groestl.Cfg) (G : g.Indices) (h : Arr 64 g.cols) :
    (∀ l, BlocksOf (8 * g.cols) l → l.foldlM (Groestl.compressC g) h.toList = some (l.foldl (Groestl.compress g) h).toList) ∧
    Groestl.pFinalC g h.toList = some (Groestl.pFinal g h).toList :=
  ⟨fun l hl => foldlM_image Arr.toList (fun _ => True) _ (fun s _ _ hb => ⟨Groestl.compressC_eq G s hb, trivial⟩) l hl h trivial, Groestl.pFinalC_eq G h⟩

/-- C60 (Groestl): short (blocks of 64 bytes) and long (128 bytes). -/
theorem C60_groestl (h : Arr 64 8) (h' : Arr 64 16) :
    ((∀ l, BlocksOf 64 l → l.foldlM (Groestl.compressC Groestl.short) h.toList = some (l.foldl (Groestl.compress Groestl.short) h).toList) ∧
      Groestl.pFinalC Groestl.short h.toList = some (Groestl.pFinal Groestl.short h).toList) ∧
    ((∀ l, BlocksOf 128 l → l.foldlM (Groestl.compressC Groestl.long) h'.toList = some (l.foldl (Groestl.compress Groestl.long) h').toList) ∧
      Groestl.pFinalC Groestl.long h'.toList = some (Groestl.pFinal Groestl.long h').toList) :=
  ⟨groestl_checked Groestl.short Groestl.indices_short h, groestl_checked Groestl.long Groestl.indices_long h'⟩

theorem kupyna_checked (g : Kupyna.Cfg) (hc : g.cols < 2 ^ 32) (hL : g.lastShift < 2 ^ 32) (h : Arr 64 g.cols) :
    ∀ l, BlocksOf (8 * g.cols) l → l.foldlM (Kupyna.compressC g) h.toList = some (l.foldl (Kupyna.compress g) h).toList :=
  fun l hl => foldlM_image Arr.toList (fun _ => True) _ (fun s _ _ hb => ⟨Kupyna.compressC_eq hc hL s hb, trivial⟩) l hl h trivial

/-- C60 (Kupyna): short (blocks of 64 bytes) and long (128 bytes): the block function, the length field and the output
transformation. -/
theorem C60_kupyna (h : Arr 64 8) (h' : Arr 64 16) (blocksLen : W64) :
    (∀ l, BlocksOf 64 l → l.foldlM (Kupyna.compressC Kupyna.short) h.toList = some (l.foldl (Kupyna.compress Kupyna.short) h).toList) ∧
    (∀ l, BlocksOf 128 l → l.foldlM (Kupyna.compressC Kupyna.long) h'.toList = some (l.foldl (Kupyna.compress Kupyna.long) h').toList) ∧
    (∀ pos < 64, (Kupyna.lengthC blocksLen 64 pos).isSome) ∧ (∀ pos < 128, (Kupyna.lengthC blocksLen 128 pos).isSome) ∧
    (∀ out, out.length = 32 → (Kupyna.outputC Kupyna.short h.toList out).isSome) ∧
    (∀ out, out.length = 64 → (Kupyna.outputC Kupyna.long h'.toList out).isSome) :=
  ⟨kupyna_checked Kupyna.short (by decide) (by decide) h, kupyna_checked Kupyna.long (by decide) (by decide) h',
    fun _ hp => by rw [Kupyna.lengthC_eq blocksLen (by decide) hp]; rfl, fun _ hp => by rw [Kupyna.lengthC_eq blocksLen (by decide) hp]; rfl,
    fun _ ho => congrArg Option.isSome (Kupyna.outputC_eq (g := Kupyna.short) (by decide) (by decide) h ho),
    fun _ ho => congrArg Option.isSome (Kupyna.outputC_eq (g := Kupyna.long) (by decide) (by decide) h' ho)⟩

theorem tiger_tables : Tiger.IsTables Tiger.TABLES := by
  unfold Tiger.IsTables
  decide +kernel

/-- C60 (Tiger and Tiger2). -/
theorem C60_tiger (state : Tiger.V3) : ∀ l, BlocksOf 64 l →
    l.foldlM (Tiger.compressC Tiger.TABLES) state.toList = some (l.foldl (Tiger.compress Tiger.TABLES) state).toList :=
  fun l hl => foldlM_image Tiger.V3.toList (fun _ => True) _ (fun s _ _ hb => ⟨Tiger.compressC_eq tiger_tables s hb, trivial⟩) l hl state trivial

/-- C60 (SM3). -/
theorem C60_sm3 (state : V8 W32) : ∀ l, BlocksOf 64 l →
    l.foldlM Sm3.compressC state.toList = some (l.foldl Sm3.compress state).toList :=
  fun l hl => foldlM_image V8.toList (fun _ => True) _ (fun s _ _ hb => ⟨Sm3.compressC_eq s hb, trivial⟩) l hl state trivial

/-- C60 (Shabal). -/
theorem C60_shabal (s : Shabal.State) :
    (∀ l, BlocksOf 64 l → l.foldlM Shabal.compressC s.toC = some (l.foldl Shabal.compress s).toC) ∧
    (∀ (buffer : BlockBuffer) (out : Bytes), buffer.WF .eager 64 → out.length = 64 →
      Shabal.finalizeC s.toC buffer out = some (Shabal.finalizeFull s buffer)) :=
  ⟨fun l hl => foldlM_image Shabal.State.toC (fun _ => True) _ (fun s _ _ hb => ⟨Shabal.compressC_eq s hb, trivial⟩) l hl s trivial,
    fun _ _ hw ho => Shabal.finalizeC_eq s hw ho⟩

/-- C60 (BelT hash), for every block cipher that returns four words. The last step counts bits in a `u128`, which suffices for
fewer than 2^120 blocks. -/
theorem C60_belt (E : Belt.CipherC) (E' : Belt.Cipher) (hE : Belt.IsCipher E E') (s : Belt.State) :
    (∀ l, BlocksOf 32 l → l.foldlM (Belt.compressBlockC E) s.toC = some (l.foldl (Belt.compressBlock E') s).toC) ∧
    (∀ (buffer : BlockBuffer) (out : Bytes), buffer.WF .eager 32 → out.length = 32 → s.r.toNat < 2 ^ 120 - 1 →
      Belt.finalizeC E s.toC buffer out = some (Belt.finalize E' s buffer)) :=
  ⟨fun l hl => foldlM_image Belt.State.toC (fun _ => True) _ (fun s _ _ hb => ⟨Belt.compressBlockC_eq hE s hb, trivial⟩) l hl s trivial,
    fun buffer _ hw ho hr => Belt.finalizeC_eq hE s hw ho (by have : buffer.pos < 32 := hw.2; omega)⟩

/-- C60 (KangarooTwelve). For every customization string, every sequence of `update` calls and finalization, no debug assertion fails
and the only check that is ever hit is that of the counter of chunks, `self.chain_length += 1`: in an `update` that leads to `2^77 + 128` bytes
or more, or in the finalization of more than `2^77` bytes (`2^64` chunks), counting customization string and its encoded length. -/
theorem C60_k12 (cust : Bytes) (hc : cust.length < 2 ^ 64) (l : List Bytes) (h : l.flatten.length < 2 ^ 77 + 128) :
    K12.newC cust = some (K12.new cust) ∧
    (∀ input : Bytes,
      K12.digestC ((K12.core cust).updates (K12.core cust).new l).core ((K12.core cust).updates (K12.core cust).new l).buf input =
        (((K12.core cust).update ((K12.core cust).updates (K12.core cust).new l) input).buf,
          if l.flatten.length + input.length < 2 ^ 77 + 128 then
            some ((K12.core cust).update ((K12.core cust).updates (K12.core cust).new l) input).core
          else none)) ∧
    K12.finalizeC ((K12.core cust).updates (K12.core cust).new l).core ((K12.core cust).updates (K12.core cust).new l).buf =
      if l.flatten.length + cust.length + (Spec.K12.lengthEncode cust.length).length ≤ 2 ^ 77 then
        some ((K12.core cust).finish ((K12.core cust).updates (K12.core cust).new l))
      else none := by
  have r := (Core.Rep.new (K12.lawful cust)).updates (K12.lawful cust) l
  rw [List.nil_append] at r
  rw [← K12.lengthEncode_eq]
  exact ⟨K12.newC_eq cust, fun input => K12.digestC_eq r h input, K12.finalizeC_eq r h hc⟩

/-- C60 (SHA-1 with collision detection): the block function, including the check of unavoidable bit conditions and the
recompression for every disturbance vector, and the last step for messages shorter than 2^64 bytes. -/
theorem C60_sha1_checked (x : V5 W32 × Sha1Checked.Detection) :
    (∀ l, BlocksOf 64 l → Sha1Checked.compressC x l = some (Sha1Checked.compress x l)) ∧
    (∀ (total : W64) (lastBlock : Bytes), lastBlock.length ≤ 64 → total.toNat + lastBlock.length < 2 ^ 64 →
      Sha1Checked.finalizeC x total lastBlock = some (Sha1Checked.finalizeChecked x total lastBlock)) :=
  ⟨fun l hl => Sha1Checked.compressC_eq x l hl, fun _ _ hl ht => Sha1Checked.finalizeC_eq x hl ht⟩

theorem blake2_checked {w : Nat} {c : Blake2.Cfg w} (hw : 8 ≤ w) (hc : c.bytes = 64 ∨ c.bytes = 32) (hbs : c.blockSize = w / 8 * 16)
    (s : Blake2.State w) : ∀ l, BlocksOf c.blockSize l → s.t.toNat + c.blockSize * l.length < 2 ^ 64 →
      l.foldlM (Blake2.updateBlockC c) s = some (Blake2.updateBlocks c s l) := by
  intro l hl ht
  induction l generalizing s with
  | nil => rfl
  | cons b l ih =>
    have hb := hl b List.mem_cons_self
    rw [List.length_cons, Nat.mul_succ] at ht
    rw [List.foldlM_cons]
    refine bind_ok (Blake2.updateBlockC_eq (by omega) hc (by rw [hb, hbs]) (by omega)) ?_
    refine (ih _ (fun x hx => hl x (List.mem_cons_of_mem _ hx)) ?_).trans rfl
    show (s.t + BitVec.ofNat 64 b.length).toNat + _ < _
    simp only [BitVec.toNat_add, BitVec.toNat_ofNat]
    omega

/-- C60 (BLAKE2b and BLAKE2s): blocks and the last step while the 64-bit byte counter suffices; the constructors panic exactly
where the model says so (C26). -/
theorem C60_blake2 (s : Blake2.State 64) (s' : Blake2.State 32) :
    (∀ l, BlocksOf 128 l → s.t.toNat + 128 * l.length < 2 ^ 64 →
      l.foldlM (Blake2.updateBlockC Blake2.cfgB) s = some (Blake2.updateBlocks Blake2.cfgB s l)) ∧
    (∀ l, BlocksOf 64 l → s'.t.toNat + 64 * l.length < 2 ^ 64 →
      l.foldlM (Blake2.updateBlockC Blake2.cfgS) s' = some (Blake2.updateBlocks Blake2.cfgS s' l)) ∧
    (∀ (buffer : BlockBuffer) (out : Bytes), buffer.WF .lazy 128 → out.length = 64 → s.t.toNat + buffer.pos < 2 ^ 64 →
      Blake2.finalizeC Blake2.cfgB s buffer out = some (Blake2.finalizeFull Blake2.cfgB s buffer)) ∧
    (∀ (buffer : BlockBuffer) (out : Bytes), buffer.WF .lazy 64 → out.length = 32 → s'.t.toNat + buffer.pos < 2 ^ 64 →
      Blake2.finalizeC Blake2.cfgS s' buffer out = some (Blake2.finalizeFull Blake2.cfgS s' buffer)) ∧
    (∀ (salt persona : Bytes) (keySize outSize : Nat),
      Blake2.newWithParamsC Blake2.cfgB salt persona keySize outSize = Blake2.newWithParams Blake2.cfgB salt persona keySize outSize ∧
      Blake2.newWithParamsC Blake2.cfgS salt persona keySize outSize = Blake2.newWithParams Blake2.cfgS salt persona keySize outSize) ∧
    (∀ (outSize : Nat) (key : Option Bytes) (salt persona : Bytes),
      Blake2.newWithSaltAndPersonalC Blake2.cfgB outSize key salt persona = (Blake2.newWithSaltAndPersonal Blake2.cfgB outSize key salt persona).toC ∧
      Blake2.newWithSaltAndPersonalC Blake2.cfgS outSize key salt persona = (Blake2.newWithSaltAndPersonal Blake2.cfgS outSize key salt persona).toC) ∧
    (∀ (outSize : Nat) (key : Bytes),
      Blake2.newFromSliceC Blake2.cfgB outSize key = (Blake2.newFromSlice Blake2.cfgB outSize key).toC ∧
      Blake2.newFromSliceC Blake2.cfgS outSize key = (Blake2.newFromSlice Blake2.cfgS outSize key).toC) :=
  ⟨blake2_checked (c := Blake2.cfgB) (by decide) (Or.inl rfl) rfl s, blake2_checked (c := Blake2.cfgS) (by decide) (Or.inr rfl) rfl s',
    fun _ _ hb ho ht => Blake2.finalizeC_eq (by decide) (Or.inl rfl) rfl rfl hb.1 hb.2 ho ht,
    fun _ _ hb ho ht => Blake2.finalizeC_eq (by decide) (Or.inr rfl) rfl rfl hb.1 hb.2 ho ht,
    fun _ _ _ _ => ⟨Blake2.newWithParamsC_eq rfl (by decide) _ _ _ _, Blake2.newWithParamsC_eq rfl (by decide) _ _ _ _⟩,
    fun _ _ _ _ => ⟨Blake2.newWithSaltAndPersonalC_eq rfl (by decide) _ _ _ _, Blake2.newWithSaltAndPersonalC_eq rfl (by decide) _ _ _ _⟩,
    fun _ _ => ⟨Blake2.newFromSliceC_eq rfl (by decide) (by decide) _ _, Blake2.newFromSliceC_eq rfl (by decide) (by decide) _ _⟩⟩

/-- C60 (Ascon-Hash256 and Ascon-XOF128), for every permutation. -/
theorem C60_ascon (P : Ascon.State → Ascon.State) (s : Ascon.State) :
    (∀ l, BlocksOf 8 l → l.foldlM (Ascon.absorbBlockC P) s = some (Ascon.updateBlocks P s l)) ∧
    (∀ (buffer : BlockBuffer) (out : Bytes), buffer.WF .eager 8 → out.length = 32 →
      Ascon.finalizeC P s buffer out = some ((Ascon.hash256 P).finalize s buffer)) ∧
    (∀ buffer : BlockBuffer, buffer.WF .eager 8 → Ascon.finalizeXofC P s buffer = some ((Ascon.xof128 P).finalize s buffer)) :=
  ⟨fun l hl => foldlM_image id (fun _ => True) _ (fun t _ _ hb => ⟨Ascon.absorbBlockC_eq P t hb, trivial⟩) l hl s trivial,
    fun _ _ hb ho => Ascon.finalizeC_eq P s hb.1 hb.2 ho, fun _ hb => Ascon.finalizeXofC_eq P s hb.1 hb.2⟩

/-- C60 (SHA-3, Keccak, SHAKE, TurboSHAKE, cSHAKE), for every permutation of 25 words, every padding byte and every rate of whole
words up to 200 bytes; names and customization strings of less than 2^61 bytes. -/
theorem C60_sha3 (f : Sha3.Lanes → Sha3.Lanes) (hf : Sha3.Perm f) (rate : Nat) (h0 : 0 < rate) (h8 : rate % 8 = 0) (hr : rate ≤ 200)
    (s : Sha3.Lanes) (hs : s.length = 25) (pad : Byte) :
    (∀ l, BlocksOf rate l → l.foldlM (Sha3.absorbBlockC f) s = some (Sha3.updateBlocks f s l)) ∧
    (∀ (buffer : BlockBuffer) (out : Bytes), buffer.WF .eager rate → out.length ≤ 200 →
      Sha3.finalizeC f rate pad s buffer out = some ((Sha3.fixed f out.length rate pad).finalize s buffer)) ∧
    (∀ buffer : BlockBuffer, buffer.WF .eager rate →
      Sha3.finalizeXofC f rate pad s buffer = some ((Sha3.shake f rate pad).finalize s buffer)) ∧
    Sha3.readBlockC f rate s = some ((Sha3.xof f rate).readBlock s) ∧
    (∀ name cust : Bytes, name.length * 8 < 2 ^ 64 → cust.length * 8 < 2 ^ 64 →
      Sha3.CShake.newC f rate name cust = some (Sha3.CShake.new f rate name cust)) :=
  ⟨fun l hl => Sha3.foldlM_absorb f h8 l hl s,
    fun _ _ hb ho => Sha3.finalizeC_eq f h8 pad hb.1 hb.2 (by rw [Sha3.length_absorbBlock hf hs]; exact ho),
    fun _ hb => Sha3.finalizeXofC_eq f h8 pad s hb.1 hb.2,
    bind_ok (Sha3.asBytesC_eq (by simp only [List.length_replicate, hs]; exact hr)) (by simp only [List.length_replicate]; rfl),
    fun _ _ hn hc => Sha3.CShake.newC_eq f h0 h8 hn hc⟩

/-- C60 (Skein), for every block cipher on `n` words; outputs of less than 2^61 bytes. -/
theorem C60_skein {n : Nat} (E : Skein.CipherC) (E' : Skein.Cipher n) (hE : Skein.IsCipher E E') (hn : 4 ≤ n) (s : Skein.State n) (N : Nat)
    (hN : N * 8 < 2 ^ 64) :
    Skein.initC E n N = some (Skein.init E' N).toC ∧
    (∀ l, BlocksOf (8 * n) l → s.t0.toNat + 8 * n * l.length < 2 ^ 64 →
      l.foldlM (fun s b => Skein.processBlockC E n s b b.length) s.toC = some (Skein.updateBlocks E' s l).toC) ∧
    (∀ (buffer : BlockBuffer) (out : Bytes), buffer.WF .lazy (8 * n) → s.t0.toNat + buffer.pos < 2 ^ 64 → out.length = N →
      Skein.finalizeC E n s.toC buffer out = some (Skein.finalizeInto E' s buffer out)) := by
  refine ⟨Skein.initC_eq hE hn hN, fun l hl ht => ?_, fun _ _ hb ht ho => Skein.finalizeC_eq hE (by omega) s hb.1 hb.2 ht (by omega)⟩
  induction l generalizing s with
  | nil => rfl
  | cons b l ih =>
    have hb := hl b List.mem_cons_self
    rw [List.length_cons, Nat.mul_succ] at ht
    rw [List.foldlM_cons]
    refine bind_ok (Skein.processBlockC_eq hE s hb (by omega)) ?_
    refine (ih _ (fun x hx => hl x (List.mem_cons_of_mem _ hx)) ?_).trans rfl
    show (s.t0 + BitVec.ofNat 64 b.length).toNat + _ < _
    simp only [BitVec.toNat_add, BitVec.toNat_ofNat]
    omega

/-! The checks are live: on a block one byte short, or with a table, index or length that the theorems exclude, the programs do
panic; on proper arguments they give a value. -/

example : Md2.compressC Md2.init (List.replicate 16 1) = some (Md2.compress Md2.init (List.replicate 16 1)) := by decide +kernel
example : Md2.compressC Md2.init (List.replicate 15 1) = none := by decide +kernel
example : (Gost94.fC Gost94.cryptoProBox Gost94.H0 (List.replicate 32 7)).isSome := by decide +kernel
example : Gost94.fC Gost94.cryptoProBox Gost94.H0 (List.replicate 31 7) = none := by decide +kernel
example : Gost94.sboxC 0xffffffff Gost94.testBox = some (Gost94.sbox 0xffffffff Gost94.testBox) := by decide +kernel
example : Streebog.updateNC (List.replicate 8 0) (1 <<< 61) = none := by decide +kernel
example : Kupyna.addShift 3 (-1) = none ∧ Kupyna.addShift 3 7 = some 10 := by decide
example : Tiger.lookC [[1], [2]] 1 [0, 1] 0 = some 2 ∧ Tiger.lookC [[1], [2]] 1 [0, 1] 1 = none := by decide
example : Sm3.w2C (List.replicate 16 1) 12 = none ∧ (Sm3.w2C (List.replicate 16 1) 13).isSome := by decide +kernel
example : Shabal.readMC (List.replicate 60 1) = some ((Shabal.readM (List.replicate 60 1)).toList) := by decide +kernel
example : Belt.getU32C (List.replicate 32 1) 8 = none ∧ Belt.getU32C (List.replicate 32 1) 7 = some 0x01010101 := by decide +kernel
example : (K12.lengthEncodeC 0x10203 (List.replicate 255 0)).map Prod.snd = some [1, 2, 3, 3] := by decide +kernel
example : K12.lengthEncodeC 0x10203 (List.replicate 3 0) = none := by decide +kernel
example : K12.lengthEncodeC (256 ^ 255) (List.replicate 255 0) = none := by decide +kernel
example : Sha1Checked.roundStep4C Sha1Checked.rnd1 0 1 2 3 4 (List.replicate 3 0) 0 ⟨1, 2, 3, 4, 5⟩ = none := by decide +kernel
example : Sha1Checked.putLenC (List.replicate 63 0) 5 = none ∧ (Sha1Checked.putLenC (List.replicate 64 0) 5).isSome := by decide +kernel
example : Blake2.roundC Blake2.cfgS (List.replicate 15 1) (Blake2.sigma 1) ⟨⟨1, 2, 3, 4⟩, ⟨1, 2, 3, 4⟩, ⟨1, 2, 3, 4⟩, ⟨1, 2, 3, 4⟩⟩ = none := by
  decide +kernel
example : (Blake2.newWithParamsC Blake2.cfgB (List.replicate 16 1) (List.replicate 5 1) 64 20).isSome ∧
    Blake2.newWithParamsC Blake2.cfgB (List.replicate 17 1) [] 0 20 = none := by decide +kernel
example : Blake2.newWithSaltAndPersonalC Blake2.cfgB 64 (some (List.replicate 65 1)) [] [] = none ∧
    Blake2.newWithSaltAndPersonalC Blake2.cfgB 64 (some (List.replicate 129 1)) [] [] = some none := by decide +kernel
example : Ascon.absorbLastBlockC id Ascon.ivHash (List.replicate 8 1) = none ∧ (Ascon.absorbLastBlockC id Ascon.ivHash (List.replicate 7 1)).isSome := by
  decide +kernel
example : Sha3.absorbBlockC id Sha3.zero (List.replicate 7 1) = none ∧ (Sha3.asBytesC Sha3.zero (List.replicate 28 1)).isSome ∧
    Sha3.leftEncodeC 256 (List.replicate 8 0) = none ∧ (Sha3.leftEncodeC 256 (List.replicate 9 0)).map Prod.fst = some [2, 1, 0] := by decide +kernel
example : Skein.processBlockC (fun _ _ x => x) 4 ⟨0xfffffffffffffff0, 0, [1, 2, 3, 4]⟩ (List.replicate 32 1) 32 = none ∧
    (Skein.processBlockC (fun _ _ x => x) 4 ⟨0, 0, [1, 2, 3, 4]⟩ (List.replicate 32 1) 32).isSome := by decide +kernel

end Hashes
