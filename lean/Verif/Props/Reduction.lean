import Verif.Proof.PadInj
import Verif.Proof.Sha1
import Verif.Proof.Sha256
import Verif.Proof.Sha512
import Verif.Proof.Md4
import Verif.Proof.Md5
import Verif.Proof.Ripemd
import Verif.Proof.Sm3
import Verif.Proof.Whirlpool
import Verif.Proof.Tiger
import Verif.Props.Sha2
/- C50: a collision of a Merkle–Damgård hash of the library yields a collision of its compression function. -/
namespace Hashes
open Spec

theorem bytesOfWordsLE_inj {w : Nat} (hw : 8 ∣ w) : ∀ {l l' : List (BitVec w)}, l.length = l'.length →
    bytesOfWordsLE l = bytesOfWordsLE l' → l = l' := by
  intro l
  induction l with
  | nil => intro l' h _; exact (List.eq_nil_of_length_eq_zero h.symm).symm
  | cons a l ih =>
    intro l' h e
    cases l' with
    | nil => cases h
    | cons b l' =>
      rw [bytesOfWordsLE_cons, bytesOfWordsLE_cons] at e
      obtain ⟨e1, e2⟩ := List.append_inj e (by simp)
      have := congrArg (fun x => BitVec.ofNat w (ofLE x)) e1
      simp only [word_le hw] at this
      rw [this, ih (Nat.succ.inj h) e2]

theorem bytesOfWordsBE_inj {w : Nat} (hw : 8 ∣ w) : ∀ {l l' : List (BitVec w)}, l.length = l'.length →
    bytesOfWordsBE l = bytesOfWordsBE l' → l = l' := by
  intro l
  induction l with
  | nil => intro l' h _; exact (List.eq_nil_of_length_eq_zero h.symm).symm
  | cons a l ih =>
    intro l' h e
    cases l' with
    | nil => cases h
    | cons b l' =>
      rw [bytesOfWordsBE_cons, bytesOfWordsBE_cons] at e
      obtain ⟨e1, e2⟩ := List.append_inj e (by simp)
      have := congrArg (fun x => BitVec.ofNat w (ofBE x)) e1
      simp only [word_be hw] at this
      rw [this, ih (Nat.succ.inj h) e2]

theorem V8.toList_inj {α : Type} {a b : V8 α} (h : a.toList = b.toList) : a = b := by
  cases a; cases b; simp only [V8.toList, List.cons.injEq] at h; simp [h]
theorem V5.toList_inj {α : Type} {a b : V5 α} (h : a.toList = b.toList) : a = b := by
  cases a; cases b; simp only [V5.toList, List.cons.injEq] at h; simp [h]
theorem V4.toList_inj {α : Type} {a b : V4 α} (h : a.toList = b.toList) : a = b := by
  cases a; cases b; simp only [V4.toList, List.cons.injEq] at h; simp [h]

/-- `MdOf c f iv pad bs`: the digest of `c` is an injective encoding of the iteration of `f` from `iv` over the `bs`-byte blocks of
the padded message. -/
def MdOf {σ τ : Type} (c : Core σ Bytes) (f : τ → Bytes → τ) (iv : τ) (pad : Bytes → Bytes) (bs : Nat) : Prop :=
  ∃ out : τ → Bytes, (∀ a b, out a = out b → a = b) ∧ ∀ m, c.finish (c.update c.new m) = out ((chunks bs (pad m)).foldl f iv)

/-- Padding with a bit and a big-endian (little-endian) bit length of `k` bytes. -/
def padBE (bs k : Nat) (m : Bytes) : Bytes := mdPad bs 0x80 (beBytes k (8 * m.length)) m
def padLE (bs k : Nat) (d : Byte) (m : Bytes) : Bytes := mdPad bs d (leBytes k (8 * m.length)) m

/-- `MerkleDamgard c f iv pad bs k`: hasher `c` iterates the code's compression function `f` from the code's initial value `iv` over
the `bs`-byte blocks of the message padded with its bit length in `k` bytes. All hashers of the library of this kind whose output
is the whole chaining value. -/
inductive MerkleDamgard : {σ τ : Type} → Core σ Bytes → (τ → Bytes → τ) → τ → (Bytes → Bytes) → Nat → Nat → Prop
  | sha1 : MerkleDamgard Sha1.sha1 (fun s b => Sha1.compressSoft s [b]) Sha1.H0 (padBE 64 8) 64 8
  | sha256 : MerkleDamgard Sha256.sha256 (fun s b => Sha256.compressSoft s [b]) Sha256.H256_256 (padBE 64 8) 64 8
  | sha512 : MerkleDamgard Sha512.sha512 (fun s b => Sha512.compressSoft s [b]) Sha512.H512_512 (padBE 128 16) 128 16
  | md4 : MerkleDamgard Md4.md4 Md4.compress Md4.S0 (padLE 64 8 0x80) 64 8
  | md5 : MerkleDamgard Md5.md5 (fun s b => Md5.compress s [b]) Md5.stateInit (padLE 64 8 0x80) 64 8
  | ripemd128 : MerkleDamgard Ripemd.ripemd128 Ripemd.C128.compress Ripemd.C128.M.H0 (padLE 64 8 0x80) 64 8
  | ripemd160 : MerkleDamgard Ripemd.ripemd160 Ripemd.C160.compress Ripemd.C160.M.H0 (padLE 64 8 0x80) 64 8
  | ripemd256 : MerkleDamgard Ripemd.ripemd256 Ripemd.C256.compress Ripemd.C256.M.H0 (padLE 64 8 0x80) 64 8
  | ripemd320 : MerkleDamgard Ripemd.ripemd320 Ripemd.C320.compress Ripemd.C320.M.H0 (padLE 64 8 0x80) 64 8
  | sm3 : MerkleDamgard Sm3.sm3 Sm3.compress Sm3.H0 (padBE 64 8) 64 8
  | whirlpool : MerkleDamgard Whirlpool.whirlpool Whirlpool.compress ⟨0, 0, 0, 0, 0, 0, 0, 0⟩ (padBE 64 32) 64 32
  | tiger : MerkleDamgard Tiger.tiger (Tiger.compress Tiger.TABLES) Tiger.S0 (padLE 64 8 0x01) 64 8
  | tiger2 : MerkleDamgard Tiger.tiger2 (Tiger.compress Tiger.TABLES) Tiger.S0 (padLE 64 8 0x80) 64 8

theorem Ripemd.isMd {α : Type} {M : Ripemd.Mod α} (hinj : ∀ a b, bytesOfWordsLE (M.toList a) = bytesOfWordsLE (M.toList b) → a = b) :
    MdOf (Ripemd.core M) M.compress M.H0 (padLE 64 8 0x80) 64 :=
  ⟨fun h => bytesOfWordsLE (M.toList h), hinj, fun m => Ripemd.digest_eq (fun _ _ => rfl) m⟩

theorem Whirlpool.digest_md (m : Bytes) : Whirlpool.whirlpool.digest m =
    bytesOfWordsLE ((chunks 64 (mdPad 64 0x80 (beBytes 32 (8 * m.length)) m)).foldl Whirlpool.compress ⟨0, 0, 0, 0, 0, 0, 0, 0⟩).toList := by
  obtain ⟨b, h1, h2, h3, h4⟩ := Core.digest_eager Whirlpool.lawful rfl m
  rw [h4]
  simp only [Whirlpool.whirlpool] at h1 h2 h3 ⊢
  simp only [Whirlpool.finalize, Whirlpool.updateBlocks, h3, Whirlpool.init, Whirlpool.length_field]
  have e := md_finalize (bs := 64) (by decide) h1 (delim := 0x80) (suffix := beBytes 32 (8 * m.length)) (by simp)
    Whirlpool.compress ⟨0, 0, 0, 0, 0, 0, 0, 0⟩ m h2
  rw [show nFull .eager 64 m.length = m.length / 64 from rfl] at e
  rw [e]

theorem Tiger.isMd (v : Bool) :
    MdOf (Tiger.core Tiger.TABLES v) (Tiger.compress Tiger.TABLES) Tiger.S0 (padLE 64 8 (if v then 0x80 else 0x01)) 64 := by
  refine ⟨fun h => bytesOfWordsLE h.toList, ?_, fun m => ?_⟩
  · intro a b h
    have := bytesOfWordsLE_inj (w := 64) (by decide) (by rfl) h
    cases a; cases b; simp only [Tiger.V3.toList, List.cons.injEq] at this; simp [this]
  · show (Tiger.core Tiger.TABLES v).digest m = _
    rw [Tiger.digest_eq, Spec.Tiger.hash, show Spec.Tiger.IV = Tiger.S0.regs from rfl, ← Tiger.foldl_compress]
    rfl

theorem MerkleDamgard.isMd {σ τ : Type} {c : Core σ Bytes} {f : τ → Bytes → τ} {iv : τ} {pad : Bytes → Bytes} {bs k : Nat}
    (h : MerkleDamgard c f iv pad bs k) : MdOf c f iv pad bs := by
  cases h with
  | sha1 =>
    refine ⟨fun h => bytesOfWordsBE h.toList, fun a b h => V5.toList_inj (bytesOfWordsBE_inj (by decide) rfl h), fun m => ?_⟩
    change Core.digest _ m = _
    rw [Sha1.digest_eq]
    simp only [Sha1.compressSoft_eq, List.foldl_cons, List.foldl_nil]
    rfl
  | sha256 =>
    refine ⟨fun h => bytesOfWordsBE h.toList, fun a b h => V8.toList_inj (bytesOfWordsBE_inj (by decide) rfl h), fun m => ?_⟩
    change Core.digest _ m = _
    rw [Sha256.sha256, Sha256.digest_chain, List.take_of_length_le (by rw [Sha256.length_be8]; exact Nat.le_refl _)]
    simp only [Sha256.compressSoft_eq, List.foldl_cons, List.foldl_nil]
    rfl
  | sha512 =>
    refine ⟨fun h => bytesOfWordsBE h.toList, fun a b h => V8.toList_inj (bytesOfWordsBE_inj (by decide) rfl h), fun m => ?_⟩
    change Core.digest _ m = _
    rw [Sha512.sha512, Sha512.digest_chain, List.take_of_length_le (by rw [length_bytesOfWordsBE]; exact Nat.le_refl _)]
    simp only [Sha512.compressSoft_eq, List.foldl_cons, List.foldl_nil]
    rfl
  | md4 =>
    refine ⟨fun h => bytesOfWordsLE h.toList, fun a b h => V4.toList_inj (bytesOfWordsLE_inj (by decide) rfl h), fun m => ?_⟩
    change Core.digest _ m = _
    rw [Md4.digest_eq, show Md4.compress = Spec.Md4.compress from funext fun s => funext (Md4.compress_eq s)]
    rfl
  | md5 =>
    refine ⟨fun h => bytesOfWordsLE h.toList, fun a b h => V4.toList_inj (bytesOfWordsLE_inj (by decide) rfl h), fun m => ?_⟩
    change Core.digest _ m = _
    rw [Md5.digest_eq]
    simp only [Md5.compress_eq, List.foldl_cons, List.foldl_nil]
    rfl
  | ripemd128 => exact Ripemd.isMd (M := Ripemd.C128.M) fun a b h => V4.toList_inj (bytesOfWordsLE_inj (by decide) rfl h)
  | ripemd160 => exact Ripemd.isMd (M := Ripemd.C160.M) fun a b h => V5.toList_inj (bytesOfWordsLE_inj (by decide) rfl h)
  | ripemd256 =>
    exact Ripemd.isMd (M := Ripemd.C256.M) fun a b h => by
      have := bytesOfWordsLE_inj (w := 32) (by decide) (by rfl) h
      obtain ⟨h1, h2⟩ := List.append_inj this rfl
      cases a; cases b
      simp only at h1 h2
      rw [V4.toList_inj h1, V4.toList_inj h2]
  | ripemd320 =>
    exact Ripemd.isMd (M := Ripemd.C320.M) fun a b h => by
      have := bytesOfWordsLE_inj (w := 32) (by decide) (by rfl) h
      obtain ⟨h1, h2⟩ := List.append_inj this rfl
      cases a; cases b
      simp only at h1 h2
      rw [V5.toList_inj h1, V5.toList_inj h2]
  | sm3 =>
    refine ⟨fun h => bytesOfWordsBE h.toList, fun a b h => V8.toList_inj (bytesOfWordsBE_inj (by decide) rfl h), fun m => ?_⟩
    change Core.digest _ m = _
    rw [Sm3.digest_eq, show Sm3.compress = Spec.Sm3.compress from funext fun s => funext (Sm3.compress_eq s)]
    rfl
  | whirlpool =>
    exact ⟨fun h : V8 W64 => bytesOfWordsLE h.toList, fun a b h => V8.toList_inj (bytesOfWordsLE_inj (by decide) rfl h),
      Whirlpool.digest_md⟩
  | tiger => exact Tiger.isMd false
  | tiger2 => exact Tiger.isMd true

theorem MerkleDamgard.suffix {σ τ : Type} {c : Core σ Bytes} {f : τ → Bytes → τ} {iv : τ} {pad : Bytes → Bytes} {bs k : Nat}
    (h : MerkleDamgard c f iv pad bs k) (m m' : Bytes) (hm : 8 * m.length < 256 ^ k) (hm' : 8 * m'.length < 256 ^ k) (hne : m ≠ m') :
    ¬ chunks bs (pad m) <:+ chunks bs (pad m') := by
  have be : ∀ bs, 0 < bs → 0 < k → k ≤ bs → ¬ chunks bs (padBE bs k m) <:+ chunks bs (padBE bs k m') := fun bs h0 h1 h2 =>
    mdPad_suffix h0 h1 h2 (by decide) (fun n => beBytes k (8 * n)) (fun n => by simp) (fun e => by
      have := beBytes_inj e
      rw [Nat.mod_eq_of_lt hm, Nat.mod_eq_of_lt hm'] at this; omega) hne
  have le : ∀ bs d, d ≠ 0 → 0 < bs → 0 < k → k ≤ bs → ¬ chunks bs (padLE bs k d m) <:+ chunks bs (padLE bs k d m') := fun bs d hd h0 h1 h2 =>
    mdPad_suffix h0 h1 h2 hd (fun n => leBytes k (8 * n)) (fun n => by simp) (fun e => by
      have := leBytes_inj e
      rw [Nat.mod_eq_of_lt hm, Nat.mod_eq_of_lt hm'] at this; omega) hne
  cases h with
  | sha1 | sha256 | sha512 | sm3 | whirlpool => exact be _ (by decide) (by decide) (by decide)
  | md4 | md5 | ripemd128 | ripemd160 | ripemd256 | ripemd320 | tiger | tiger2 =>
    exact le _ _ (by decide) (by decide) (by decide) (by decide)

/-- C50. The digest is an injective encoding of the iteration of the code's compression function over the padded message. -/
theorem C50_chain {σ τ : Type} {c : Core σ Bytes} {f : τ → Bytes → τ} {iv : τ} {pad : Bytes → Bytes} {bs k : Nat}
    (h : MerkleDamgard c f iv pad bs k) : MdOf c f iv pad bs := h.isMd

/-- C50. Two different messages within the length-field range with the same digest — through the streaming interface, in any
chunking — show two different arguments of the code's compression function with the same output, among the calls that hashing
the one and hashing the other makes. -/
theorem C50_collision {σ τ : Type} {c : Core σ Bytes} {f : τ → Bytes → τ} {iv : τ} {pad : Bytes → Bytes} {bs k : Nat}
    (h : MerkleDamgard c f iv pad bs k) (m m' : Bytes) (hm : 8 * m.length < 256 ^ k) (hm' : 8 * m'.length < 256 ^ k) (hne : m ≠ m')
    (hd : c.finish (c.update c.new m) = c.finish (c.update c.new m')) :
    CallsCollide f (calls f iv (chunks bs (pad m))) (calls f iv (chunks bs (pad m'))) := by
  obtain ⟨out, hinj, e⟩ := h.isMd
  rw [e, e] at hd
  exact fold_collision f iv _ _ (h.suffix m m' hm hm' hne) (h.suffix m' m hm' hm hne.symm) (hinj _ _ hd)

/-- Concrete case: the hypotheses are met by the published MD5 collision (Wang and Yu, 2004; two 128-byte messages). -/
example :
    let a : Nat := 0xd131dd02c5e6eec4693d9a0698aff95c2fcab58712467eab4004583eb8fb7f8955ad340609f4b30283e488832571415a085125e8f7cdc99fd91dbdf280373c5bd8823e3156348f5bae6dacd436c919c6dd53e2b487da03fd02396306d248cda0e99f33420f577ee8ce54b67080a80d1ec69821bcb6a8839396f9652b6ff72a70
    let b : Nat := 0xd131dd02c5e6eec4693d9a0698aff95c2fcab50712467eab4004583eb8fb7f8955ad340609f4b30283e4888325f1415a085125e8f7cdc99fd91dbd7280373c5bd8823e3156348f5bae6dacd436c919c6dd53e23487da03fd02396306d248cda0e99f33420f577ee8ce54b67080280d1ec69821bcb6a8839396f965ab6ff72a70
    a ≠ b ∧ Md5.md5.finish (Md5.md5.update Md5.md5.new (beBytes 128 a)) =
      Md5.md5.finish (Md5.md5.update Md5.md5.new (beBytes 128 b)) ∧
    Md5.md5.finish (Md5.md5.update Md5.md5.new (beBytes 128 a)) = beBytes 16 0x79054025255fb1a26e4bc422aef54eb4 := by
  decide +kernel

end Hashes
