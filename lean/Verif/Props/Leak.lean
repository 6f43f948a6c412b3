import Verif.Props.Checked
import Verif.Proof.Leak.Sm3
import Verif.Proof.Leak.Shabal
import Verif.Proof.Leak.Blake2
import Verif.Proof.Leak.Keccak
import Verif.Proof.Leak.Skein
import Verif.Proof.Leak.Ascon
import Verif.Proof.Leak.Belt
import Verif.Proof.Leak.Soft
import Verif.Proof.Leak.Md2
import Verif.Proof.Leak.Tiger
import Verif.Proof.Leak.Whirlpool
import Verif.Proof.Leak.Streebog
import Verif.Proof.Leak.Groestl
import Verif.Proof.Leak.Kupyna
import Verif.Proof.Leak.Gost94
import Verif.Proof.Leak.Fsb
/-
C64: what an observer of the memory accesses and branches learns.  The programs in Verif/Leak are those of Verif/Checked (block
functions written statement by statement) that also record the index of every access to an array, the bounds of every slice and the
outcome of every branch and run-time check (Base/Leak.lean).  Two groups of crates:

* The record depends on lengths only: two runs on as many blocks, of the same length, with whatever contents and from whatever
  chaining values, show the same (SM3, SHA-2, JH, Shabal, BLAKE2, SHA-3, Skein, Ascon, BelT).
* The record gives the message away: two runs from the same chaining value on as many blocks that show the same were on the same
  blocks (MD2, Tiger, Whirlpool, Streebog, Groestl, Kupyna, GOST R 34.11-94, FSB; all look up tables at secret indices, and FSB also
  branches on the message).
-/
namespace Hashes
open Leak

/-- As many blocks, all of `n` bytes. -/
def SameShape (n : Nat) (l l' : List Bytes) : Prop := l.length = l'.length ∧ BlocksOf n l ∧ BlocksOf n l'

theorem SameShape.each {n : Nat} {l l' : List Bytes} (h : SameShape n l l') : Each Len l l' :=
  Rel.each_of_len h.1 fun a ha b hb => (h.2.1 a ha).trans (h.2.2 b hb).symm

/-- Buffers filled to the same position. -/
def SameFill (k : BufKind) (n : Nat) (b b' : BlockBuffer) : Prop := b.pos = b'.pos ∧ b.WF k n ∧ b'.WF k n

theorem SameFill.padded {k : BufKind} {n : Nat} {b b' : BlockBuffer} (h : SameFill k n b b') : Len (b.padWithZeros n).1 (b'.padWithZeros n).1 := by
  simp only [Len, BlockBuffer.padWithZeros, List.length_append, List.length_replicate, List.length_take, h.1, h.2.1.1, h.2.2.1]

/-- Forgetting the observations of the programs in Verif/Leak gives the programs in Verif/Checked. -/
theorem C64_values :
    (∀ s b, (Sm3.compressL s b).val = Sm3.compressC s b) ∧
    (∀ a s l, (Sha256.compressSoftL a s l).val = Sha256.compressSoftC a s l) ∧
    (∀ a s l, (Sha512.compressSoftL a s l).val = Sha512.compressSoftC a s l) ∧
    (∀ y d, (Jh.f8L y d).val = Jh.f8C y d) ∧
    ((∀ s b, (Shabal.compressL s b).val = Shabal.compressC s b) ∧ ∀ s b o, (Shabal.finalizeL s b o).val = Shabal.finalizeC s b o) ∧
    ((∀ w (c : Blake2.Cfg w) s b, (Blake2.updateBlockL c s b).val = Blake2.updateBlockC c s b) ∧
      ∀ w (c : Blake2.Cfg w) s b o, (Blake2.finalizeL c s b o).val = Blake2.finalizeC c s b o) ∧
    ((∀ f s b, (Sha3.absorbBlockL f s b).val = Sha3.absorbBlockC f s b) ∧
      (∀ f r p s b o, (Sha3.finalizeL f r p s b o).val = Sha3.finalizeC f r p s b o) ∧
      (∀ f r p s b, (Sha3.finalizeXofL f r p s b).val = Sha3.finalizeXofC f r p s b) ∧
      ∀ f r s, (Sha3.readBlockL f r s).val = Sha3.readBlockC f r s) ∧
    ((∀ E n s b k, (Skein.processBlockL E n s b k).val = Skein.processBlockC E n s b k) ∧
      ∀ E n s b o, (Skein.finalizeL E n s b o).val = Skein.finalizeC E n s b o) ∧
    ((∀ P s b, (Ascon.absorbBlockL P s b).val = Ascon.absorbBlockC P s b) ∧
      (∀ P s b, (Ascon.finalizeXofL P s b).val = Ascon.finalizeXofC P s b) ∧
      ∀ P s b o, (Ascon.finalizeL P s b o).val = Ascon.finalizeC P s b o) ∧
    ((∀ E s b, (Belt.compressBlockL E s b).val = Belt.compressBlockC E s b) ∧ ∀ E s b o, (Belt.finalizeL E s b o).val = Belt.finalizeC E s b o) ∧
    (∀ s b, (Md2.compressL s b).val = Md2.compressC s b) ∧ (∀ T s b, (Tiger.compressL T s b).val = Tiger.compressC T s b) ∧
    (∀ s b, (Whirlpool.compressL s b).val = Whirlpool.compressC s b) ∧
    (∀ h n s b l, (Streebog.compressL h n s b l).val = Streebog.compressC h n s b l) ∧
    (∀ g s b, (Groestl.compressL g s b).val = Groestl.compressC g s b) ∧ (∀ g s b, (Kupyna.compressL g s b).val = Kupyna.compressC g s b) ∧
    (∀ sb s b, (Gost94.compressL sb s b).val = Gost94.compressC sb s b) ∧
    (∀ P PI h m, (Fsb.compressL P PI h m).val = Fsb.compress P PI h m) :=
  ⟨Sm3.compressL_val, Sha256.compressSoftL_val, Sha512.compressSoftL_val, Jh.f8L_val, ⟨Shabal.compressL_val, Shabal.finalizeL_val⟩,
    ⟨fun _ => Blake2.updateBlockL_val, fun _ => Blake2.finalizeL_val⟩,
    ⟨Sha3.absorbBlockL_val, Sha3.finalizeL_val, Sha3.finalizeXofL_val, Sha3.readBlockL_val⟩, ⟨Skein.processBlockL_val, Skein.finalizeL_val⟩,
    ⟨Ascon.absorbBlockL_val, Ascon.finalizeXofL_val, Ascon.finalizeL_val⟩, ⟨Belt.compressBlockL_val, Belt.finalizeL_val⟩,
    Md2.compressL_val, Tiger.compressL_val, Whirlpool.compressL_val, Streebog.compressL_val, Groestl.compressL_val, Kupyna.compressL_val,
    Gost94.compressL_val, fun _ _ => Fsb.compressL_val⟩

/-! ### Observations that depend on lengths only -/

/-- C64 (SM3). -/
theorem C64_sm3 (s s' : V8 W32) (l l' : List Bytes) (h : SameShape 64 l l') :
    (l.foldlM Sm3.compressL s.toList).obs = (l'.foldlM Sm3.compressL s'.toList).obs :=
  (Rel.foldlM h.each (show Len s.toList s'.toList from rfl) fun _ _ _ _ hs hb => Sm3.compressL_rel hs hb).obs

/-- C64 (SHA-224, SHA-256, SHA-384, SHA-512 and truncations): the portable code, with its table of constants at the address `a`. -/
theorem C64_sha2 (a : Nat) :
    (∀ (s s' : V8 W32) (l l' : List Raw.Obj), SameShape 64 (l.map Raw.Obj.data) (l'.map Raw.Obj.data) →
      (Sha256.compressSoftL a s l).obs = (Sha256.compressSoftL a s' l').obs) ∧
    (∀ (s s' : V8 W64) (l l' : List Raw.Obj), SameShape 128 (l.map Raw.Obj.data) (l'.map Raw.Obj.data) →
      (Sha512.compressSoftL a s l).obs = (Sha512.compressSoftL a s' l').obs) := by
  have key {n : Nat} {l l' : List Raw.Obj} (h : SameShape n (l.map Raw.Obj.data) (l'.map Raw.Obj.data)) : Each (fun b b' => Len b.data b'.data) l l' :=
    Rel.each_of_len (by simpa [Len] using h.1) fun x hx y hy => (h.2.1 _ (List.mem_map_of_mem hx)).trans (h.2.2 _ (List.mem_map_of_mem hy)).symm
  exact ⟨fun s s' l l' h => (Sha256.compressSoftL_rel a s s' (key h)).obs, fun s s' l l' h => (Sha512.compressSoftL_rel a s s' (key h)).obs⟩

/-- C64 (JH): on a block at a given address. -/
theorem C64_jh (y y' : V8 W128) (addr : Nat) (b b' : Bytes) (hb : b.length = b'.length) :
    (Jh.f8L y ⟨addr, b⟩).obs = (Jh.f8L y' ⟨addr, b'⟩).obs :=
  (Jh.f8L_rel y y' (show Raw.SameObj ⟨addr, b⟩ ⟨addr, b'⟩ from ⟨rfl, hb⟩)).obs

/-- C64 (Shabal): blocks and the last step. -/
theorem C64_shabal (s s' : Shabal.State) (l l' : List Bytes) (h : SameShape 64 l l') (b b' : BlockBuffer) (hb : SameFill .eager 64 b b')
    (out out' : Bytes) (ho : out.length = out'.length) :
    (do let s ← l.foldlM Shabal.compressL s.toC; Shabal.finalizeL s b out).obs =
      (do let s ← l'.foldlM Shabal.compressL s'.toC; Shabal.finalizeL s b' out').obs :=
  (Rel.bind (Rel.foldlM h.each (show Shabal.Same s.toC s'.toC from ⟨by simp [Shabal.State.toC], by simp [Shabal.State.toC], by simp [Shabal.State.toC]⟩) fun _ _ _ _ hs hb => Shabal.compressL_rel hs hb)
    fun _ _ hs => Shabal.finalizeL_rel hs hb.1 hb.padded ho).obs

/-- C64 (BLAKE2): blocks and the last step; the number of bytes hashed so far is not secret. -/
theorem C64_blake2 {w : Nat} (c : Blake2.Cfg w) (s s' : Blake2.State w) (ht : s.t = s'.t) (l l' : List Bytes) (h : SameShape c.blockSize l l')
    (b b' : BlockBuffer) (hb : SameFill .lazy c.blockSize b b') (out out' : Bytes) (ho : out.length = out'.length) :
    (do let s ← l.foldlM (Blake2.updateBlockL c) s; Blake2.finalizeL c s b out).obs =
      (do let s ← l'.foldlM (Blake2.updateBlockL c) s'; Blake2.finalizeL c s b' out').obs :=
  (Rel.bind (Rel.foldlM (R := fun s s' => s.t = s'.t) h.each ht fun _ _ _ _ hs hb => Blake2.updateBlockL_rel c hs hb)
    fun _ _ hs => Blake2.finalizeL_rel c hs hb.1 hb.padded ho).obs

/-- `k` blocks of output of a sponge. -/
def Sha3.readL (f : Sha3.Lanes → Sha3.Lanes) (rate : Nat) : Nat → Sha3.Lanes → Leak Sha3.Lanes
  | 0, s => pure s
  | k + 1, s => do
    let r ← Sha3.readBlockL f rate s
    Sha3.readL f rate k r.2

theorem Sha3.readL_rel {f : Sha3.Lanes → Sha3.Lanes} (hf : Sha3.Perm f) (rate k : Nat) {s s' : Sha3.Lanes} (h : Sha3.Both s s') :
    Rel Sha3.Both (Sha3.readL f rate k s) (Sha3.readL f rate k s') := by
  induction k generalizing s s' with
  | zero => exact Rel.pure h
  | succ k ih => exact Rel.bind (Sha3.readBlockL_rel hf rate h) fun _ _ h => ih h.2

/-- C64 (SHA-3, Keccak, SHAKE, TurboSHAKE): absorbing, the last step and `k` blocks of output, for a permutation of 25 words that shows
nothing itself. -/
theorem C64_sha3 (f : Sha3.Lanes → Sha3.Lanes) (hf : Sha3.Perm f) (rate : Nat) (pad : Byte) (s s' : Sha3.Lanes) (hs : s.length = 25) (hs' : s'.length = 25)
    (l l' : List Bytes) (h : SameShape rate l l') (b b' : BlockBuffer) (hb : SameFill .eager rate b b') (out out' : Bytes)
    (ho : out.length = out'.length) (k : Nat) :
    (do let s ← l.foldlM (Sha3.absorbBlockL f) s; Sha3.finalizeL f rate pad s b out).obs =
      (do let s ← l'.foldlM (Sha3.absorbBlockL f) s'; Sha3.finalizeL f rate pad s b' out').obs ∧
    (do let s ← l.foldlM (Sha3.absorbBlockL f) s; let s ← Sha3.finalizeXofL f rate pad s b; Sha3.readL f rate k s).obs =
      (do let s ← l'.foldlM (Sha3.absorbBlockL f) s'; let s ← Sha3.finalizeXofL f rate pad s b'; Sha3.readL f rate k s).obs := by
  have key : Rel Sha3.Both (l.foldlM (Sha3.absorbBlockL f) s) (l'.foldlM (Sha3.absorbBlockL f) s') :=
    Rel.foldlM h.each ⟨hs, hs'⟩ fun _ _ _ _ hs hb => Sha3.absorbBlockL_rel hf hs hb
  exact ⟨(Rel.bind key fun _ _ hs => Sha3.finalizeL_rel hf rate pad hs hb.1 hb.padded ho).obs,
    (Rel.bind key fun _ _ hs => Rel.bind (Sha3.finalizeXofL_rel hf rate pad hs hb.1 hb.padded) fun _ _ hs => Sha3.readL_rel hf rate k hs).obs⟩

/-- C64 (Skein): blocks and the last step, for a block cipher on `n` words that shows nothing itself; the number of bytes hashed so
far and the flags are not secret. -/
theorem C64_skein (E : Skein.CipherC) (n : Nat) (hE : ∀ k t b, (E k t b).length = n) (s s' : Skein.State n) (h0 : s.t0 = s'.t0) (h1 : s.t1 = s'.t1)
    (l l' : List Bytes) (h : SameShape (8 * n) l l') (b b' : BlockBuffer) (hb : SameFill .lazy (8 * n) b b') (out out' : Bytes)
    (ho : out.length = out'.length) :
    (do let s ← l.foldlM (fun s b => Skein.processBlockL E n s b b.length) s.toC; Skein.finalizeL E n s b out).obs =
      (do let s ← l'.foldlM (fun s b => Skein.processBlockL E n s b b.length) s'.toC; Skein.finalizeL E n s b' out').obs :=
  have hE' : ∀ k k' t b b', Len k k' → Len b b' → Len (E k t b) (E k' t b') := fun _ _ _ _ _ _ _ => (hE _ _ _).trans (hE _ _ _).symm
  (Rel.bind (Rel.foldlM h.each (show Skein.Same s.toC s'.toC from ⟨h0, h1, s.x.2.trans s'.x.2.symm⟩) fun _ _ b b' hs hb => by
      rw [show b.length = b'.length from hb]; exact Skein.processBlockL_rel hE' n _ hs hb)
    fun _ _ hs => Skein.finalizeL_rel hE' n hs hb.1 hb.padded ho).obs

/-- C64 (Ascon-Hash256 and Ascon-XOF128): absorbing, the last step and the output, for a permutation that shows nothing itself. -/
theorem C64_ascon (P : Ascon.State → Ascon.State) (s s' : Ascon.State) (l l' : List Bytes) (h : SameShape 8 l l') (b b' : BlockBuffer)
    (hb : SameFill .eager 8 b b') (out out' : Bytes) (ho : out.length = out'.length) :
    (do let s ← l.foldlM (Ascon.absorbBlockL P) s; Ascon.finalizeL P s b out).obs =
      (do let s ← l'.foldlM (Ascon.absorbBlockL P) s'; Ascon.finalizeL P s b' out').obs ∧
    (do let s ← l.foldlM (Ascon.absorbBlockL P) s; let s ← Ascon.finalizeXofL P s b; Ascon.squeezeL P s out).obs =
      (do let s ← l'.foldlM (Ascon.absorbBlockL P) s'; let s ← Ascon.finalizeXofL P s b'; Ascon.squeezeL P s out').obs := by
  have key : Rel Any (l.foldlM (Ascon.absorbBlockL P) s) (l'.foldlM (Ascon.absorbBlockL P) s') :=
    Rel.foldlM h.each trivial fun _ _ _ _ _ hb => Ascon.absorbBlockL_rel P _ _ hb
  have hd : Len b.data b'.data := hb.2.1.1.trans hb.2.2.1.symm
  exact ⟨(Rel.bind key fun _ _ _ => Ascon.finalizeL_rel P _ _ hb.1 hd ho).obs,
    (Rel.bind key fun _ _ _ => Rel.bind (Ascon.finalizeXofL_rel P _ _ hb.1 hd) fun _ _ _ => Ascon.squeezeL_rel P _ _ ho).obs⟩

/-- C64 (BelT): blocks and the last step, for a block cipher on four words that shows nothing itself; the number of blocks hashed so far
is not secret. -/
theorem C64_belt (E : Belt.CipherC) (hE : ∀ x k, (E x k).length = 4) (s s' : Belt.State) (hr : s.r = s'.r) (l l' : List Bytes)
    (h : SameShape 32 l l') (b b' : BlockBuffer) (hb : SameFill .eager 32 b b') (out out' : Bytes) (ho : out.length = out'.length) :
    (do let s ← l.foldlM (Belt.compressBlockL E) s.toC; Belt.finalizeL E s b out).obs =
      (do let s ← l'.foldlM (Belt.compressBlockL E) s'.toC; Belt.finalizeL E s b' out').obs :=
  have hE' : ∀ x x' k k', Len x x' → Len k k' → Len (E x k) (E x' k') := fun _ _ _ _ _ _ => (hE _ _).trans (hE _ _).symm
  (Rel.bind (Rel.foldlM h.each (show Belt.Same s.toC s'.toC from ⟨hr, rfl, rfl⟩) fun _ _ _ _ hs hb => Belt.compressBlockL_rel hE' hs hb)
    fun _ _ hs => Belt.finalizeL_rel hE' hs hb.1 hb.padded ho).obs

/-! ### Observations that give the message away -/

/-- Two runs of `f` from the state `s` over as many blocks of `n` bytes that show the same were over the same blocks. -/
def Reveals {σ : Type} (f : σ → Bytes → Leak σ) (n : Nat) (s : σ) : Prop :=
  ∀ l l' : List Bytes, SameShape n l l' → (l.foldlM f s).obs = (l'.foldlM f s).obs → l = l'

theorem reveals {σ : Type} {f : σ → Bytes → Leak σ} {n : Nat} (I : σ → Prop)
    (ok : ∀ s b, I s → b.length = n → ∃ t, (f s b).val = some t ∧ I t)
    (tell : ∀ s b b', I s → b.length = n → b'.length = n → ∀ k k' : σ → Leak σ, Tells (fun _ _ => b = b') (f s b >>= k) (f s b' >>= k'))
    {s : σ} (hs : I s) : Reveals f n s := by
  have ret : ∀ (l : List Bytes) (s : σ), I s → BlocksOf n l → ∃ t, (l.foldlM f s).val = some t := by
    intro l
    induction l with
    | nil => exact fun s _ _ => ⟨s, rfl⟩
    | cons b l ih =>
      intro s hs hl
      obtain ⟨t, h1, h2⟩ := ok s b hs (hl b List.mem_cons_self)
      obtain ⟨u, h3⟩ := ih t h2 fun c hc => hl c (List.mem_cons_of_mem _ hc)
      exact ⟨u, by rw [List.foldlM_cons, val_bind, h1]; exact h3⟩
  intro l
  induction l generalizing s with
  | nil =>
    intro l' h _
    cases l' with
    | nil => rfl
    | cons => cases h.1
  | cons b l ih =>
    intro l' h ho
    cases l' with
    | nil => cases h.1
    | cons b' l' =>
      obtain ⟨h0, hl, hl'⟩ := h
      obtain ⟨u, hu⟩ := ret _ s hs hl
      obtain ⟨u', hu'⟩ := ret _ s hs hl'
      rw [List.foldlM_cons] at ho hu hu'
      rw [List.foldlM_cons] at ho
      have e := tell s b b' hs (hl b List.mem_cons_self) (hl' b' List.mem_cons_self) _ _ u u' hu hu' ho
      subst e
      obtain ⟨t, h1, h2⟩ := ok s b hs (hl b List.mem_cons_self)
      have ho' : ((f s b).obs ++ (l.foldlM f t).obs) = ((f s b).obs ++ (l'.foldlM f t).obs) := by
        rw [obs_bind, obs_bind, h1] at ho; exact ho
      rw [ih h2 l' ⟨Nat.succ.inj h0, fun c hc => hl c (List.mem_cons_of_mem _ hc), fun c hc => hl' c (List.mem_cons_of_mem _ hc)⟩
        (List.append_cancel_left ho')]

/-- C64 (MD2). -/
theorem C64_md2 (st : Md2.State) (hx : st.x.length = 48) (hc : st.checksum.length = 16) : Reveals Md2.compressL 16 st := by
  refine reveals (fun t => t.x.length = 48 ∧ t.checksum.length = 16) (fun s b hs hb => ?_) (fun s b b' _ hb hb' k k' => ?_) ⟨hx, hc⟩
  · exact ⟨_, (Md2.compressL_val s b).trans (Md2.compressC_eq hs.1 hs.2 hb), Md2.compress_lengths hs.1 hs.2 hb⟩
  · intro x y hx hy ho
    refine List.ext_getElem? fun j => ?_
    by_cases hj : j < 16
    · exact Md2.compressL_tells s b b' x y hx hy ho j hj
    · rw [List.getElem?_eq_none (by omega), List.getElem?_eq_none (by omega)]

/-- C64 (Tiger and Tiger2). -/
theorem C64_tiger (state : Tiger.V3) : Reveals (Tiger.compressL Tiger.TABLES) 64 state.toList := by
  refine reveals (fun t => ∃ v : Tiger.V3, t = v.toList) ?_ ?_ ⟨state, rfl⟩
  · rintro _ b ⟨v, rfl⟩ hb
    exact ⟨_, (Tiger.compressL_val _ _ b).trans (Tiger.compressC_eq tiger_tables v hb), _, rfl⟩
  · exact fun s b b' _ hb hb' k k' => Tiger.compressL_tells _ s hb hb'

/-- C64 (Whirlpool). -/
theorem C64_whirlpool (state : V8 W64) : Reveals Whirlpool.compressL 64 state.toList := by
  refine reveals (fun t => ∃ v : V8 W64, t = v.toList) ?_ ?_ ⟨state, rfl⟩
  · rintro _ b ⟨v, rfl⟩ hb
    exact ⟨_, (Whirlpool.compressL_val _ b).trans (Whirlpool.compressC_eq v hb), _, rfl⟩
  · rintro _ b b' ⟨v, rfl⟩ hb hb' k k'
    exact Whirlpool.compressL_tells v hb hb'

/-- C64 (Streebog). -/
theorem C64_streebog (s : Streebog.State) :
    Reveals (fun (t : List W64 × List W64 × List W64) b => Streebog.compressL t.1 t.2.1 t.2.2 b 64) 64 (s.h.toList, s.n.toList, s.sigma.toList) := by
  refine reveals (fun t => ∃ v : Streebog.State, t = (v.h.toList, v.n.toList, v.sigma.toList)) ?_ ?_ ⟨s, rfl⟩
  · rintro _ b ⟨v, rfl⟩ hb
    exact ⟨_, (Streebog.compressL_val _ _ _ b _).trans (Streebog.compressC_eq v hb (by decide)), _, rfl⟩
  · rintro _ b b' ⟨v, rfl⟩ hb hb' k k'
    exact Streebog.compressL_tells v.h v.n v.sigma hb hb' 64

theorem groestl_reveals (g : Groestl.Cfg) (G : g.Indices) (C : g.Covers) (hr : 0 < g.rounds) (h : Arr 64 g.cols) :
    Reveals (Groestl.compressL g) (8 * g.cols) h.toList := by
  refine reveals (fun t => ∃ v : Arr 64 g.cols, t = v.toList) ?_ ?_ ⟨h, rfl⟩
  · rintro _ b ⟨v, rfl⟩ hb
    exact ⟨_, (Groestl.compressL_val g _ b).trans (Groestl.compressC_eq G v hb), _, rfl⟩
  · exact fun s b b' _ hb hb' k k' => Groestl.compressL_tells G C hr s hb hb'

/-- C64 (Groestl), short and long. -/
theorem C64_groestl (h : Arr 64 8) (h' : Arr 64 16) :
    Reveals (Groestl.compressL Groestl.short) 64 h.toList ∧ Reveals (Groestl.compressL Groestl.long) 128 h'.toList :=
  ⟨groestl_reveals Groestl.short Groestl.indices_short Groestl.covers_short (by decide) h,
    groestl_reveals Groestl.long Groestl.indices_long Groestl.covers_long (by decide) h'⟩

theorem kupyna_reveals (g : Kupyna.Cfg) (hc : g.cols < 2 ^ 32) (hL : g.lastShift < 2 ^ 32) (hr : 0 < g.rounds) (h : Arr 64 g.cols) :
    Reveals (Kupyna.compressL g) (8 * g.cols) h.toList := by
  refine reveals (fun t => ∃ v : Arr 64 g.cols, t = v.toList) ?_ ?_ ⟨h, rfl⟩
  · rintro _ b ⟨v, rfl⟩ hb
    exact ⟨_, (Kupyna.compressL_val g _ b).trans (Kupyna.compressC_eq hc hL v hb), _, rfl⟩
  · rintro _ b b' ⟨v, rfl⟩ hb hb' k k'
    exact Kupyna.compressL_tells hr v hb hb'

/-- C64 (Kupyna), short and long. -/
theorem C64_kupyna (h : Arr 64 8) (h' : Arr 64 16) :
    Reveals (Kupyna.compressL Kupyna.short) 64 h.toList ∧ Reveals (Kupyna.compressL Kupyna.long) 128 h'.toList :=
  ⟨kupyna_reveals Kupyna.short (by decide) (by decide) (by decide) h, kupyna_reveals Kupyna.long (by decide) (by decide) (by decide) h'⟩

/-- C64 (GOST R 34.11-94), for every S-box with four-bit entries. -/
theorem C64_gost94 (sb : List (List Byte)) (hsb : Gost94.IsBox sb) (s : Gost94.State) (hs : s.h.length = 32) :
    Reveals (Gost94.compressL sb) 32 s.toC := by
  refine reveals (fun t => ∃ v : Gost94.State, v.h.length = 32 ∧ t = v.toC) ?_ ?_ ⟨s, hs, rfl⟩
  · rintro _ b ⟨v, hv, rfl⟩ hb
    refine ⟨_, (Gost94.compressL_val sb _ b).trans (Gost94.compressC_eq hsb hv hb), Gost94.compress sb v b, ?_, rfl⟩
    exact Gost94.length_f ..
  · rintro _ b b' ⟨v, hv, rfl⟩ hb hb' k k'
    exact Gost94.compressL_tells sb (s := v.toC) hv hb hb'

/-- C64 (FSB): all five sizes, for every table of the right length.  Other than above, the number of observations depends on the message. -/
theorem C64_fsb (P : Fsb.Params) (hP : P ∈ Fsb.all) (PI : Bytes) (hPI : PI.length = 272384) (h : Bytes) (hh : h.length = P.r / 8) :
    Reveals (Fsb.compressL P PI) P.bs h := by
  have hs : ∀ P ∈ Fsb.all, P.n / P.r * (P.p / 8 + 1) ≤ 272384 := by decide
  have g := Fsb.good hP
  refine reveals (fun t => t.length = P.r / 8) (fun s b hs' hb => ?_) (fun s b b' hs' hb hb' k k' => ?_) hh
  · exact ⟨_, (Fsb.compressL_val s b).trans (Fsb.compress_eq g (hPI ▸ hs P hP) s b hs' hb), Fsb.length_compress s b⟩
  · intro x y hx hy ho
    obtain ⟨u, hu, _, eu⟩ := bind_some hx
    obtain ⟨v, hv, _, ev⟩ := bind_some hy
    exact (Fsb.compressL_reads g s hs' hb hb' u v _ _ hu hv (eu.symm.trans (ho.trans ev))).2

/-! The observations are there, and the theorems distinguish: a block function of the first group shows hundreds of accesses, and more
of them for more blocks; one of the second group shows different accesses for different blocks. -/

example : 500 < (Sm3.compressL (List.replicate 8 0) (List.replicate 64 0)).obs.length := by decide +kernel
example : (Leak.branch ((1 : Byte) = 1) (pure 0) (pure 1 : Leak Nat)).obs ≠ (Leak.branch ((1 : Byte) = 2) (pure 0) (pure 1 : Leak Nat)).obs := by
  decide
example : (Leak.idx [1, 2, 3] 1).obs ≠ (Leak.idx [1, 2, 3] 2).obs := by decide
example : ([List.replicate 64 (0 : Byte)].foldlM Sm3.compressL (List.replicate 8 0)).obs ≠ ([List.replicate 64 (0 : Byte), List.replicate 64 (0 : Byte)].foldlM Sm3.compressL (List.replicate 8 0)).obs := by
  decide +kernel

/-- What `Reveals` says of one block. -/
theorem Reveals.ne {σ : Type} {f : σ → Bytes → Leak σ} {n : Nat} {s : σ} (h : Reveals f n s) {b b' : Bytes} (hb : b.length = n) (hb' : b'.length = n)
    (hn : b ≠ b') : (f s b).obs ≠ (f s b').obs := fun e => by
  have key : [b] = [b'] := h [b] [b'] ⟨rfl, fun c hc => by cases List.mem_singleton.mp hc; exact hb, fun c hc => by cases List.mem_singleton.mp hc; exact hb'⟩
    (by simpa only [List.foldlM_cons, List.foldlM_nil, bind_pure] using e)
  exact hn (List.singleton_inj.mp key)

example : (Tiger.compressL Tiger.TABLES Tiger.S0.toList (List.replicate 64 (0 : Byte))).obs ≠
    (Tiger.compressL Tiger.TABLES Tiger.S0.toList (List.replicate 63 (0 : Byte) ++ [1])).obs := (C64_tiger _).ne (by decide) (by decide) (by decide)
example (s : V8 W32) : ¬ Reveals Sm3.compressL 64 s.toList := fun h => by
  have hs : SameShape 64 [List.replicate 64 (0 : Byte)] [List.replicate 64 (1 : Byte)] :=
    ⟨rfl, fun c hc => by cases List.mem_singleton.mp hc; decide, fun c hc => by cases List.mem_singleton.mp hc; decide⟩
  exact absurd (h _ _ hs (C64_sm3 s s _ _ hs)) (by decide)
example : ∃ (b b' : Bytes), b.length = 16 ∧ b'.length = 16 ∧
    (Md2.compressL ⟨List.replicate 48 (0 : Byte), List.replicate 16 (0 : Byte)⟩ b).obs ≠ (Md2.compressL ⟨List.replicate 48 (0 : Byte), List.replicate 16 (0 : Byte)⟩ b').obs :=
  ⟨List.replicate 16 (0 : Byte), List.replicate 15 (0 : Byte) ++ [1], by decide, by decide, (C64_md2 _ (by decide) (by decide)).ne (by decide) (by decide) (by decide)⟩
example : (Fsb.compressL Fsb.fsb160 (List.replicate 272384 0) (List.replicate 80 0) (List.replicate 60 0)).obs ≠
    (Fsb.compressL Fsb.fsb160 (List.replicate 272384 0) (List.replicate 80 0) (List.replicate 59 0 ++ [1])).obs :=
  (C64_fsb _ (by decide) _ List.length_replicate _ (by decide)).ne (by decide) (by decide) (by decide)

end Hashes
