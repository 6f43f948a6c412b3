import Verif.Props.Streaming
import Verif.Props.Sha2
import Verif.Props.Blake2
import Verif.Props.Groestl
import Verif.Props.Kupyna
import Verif.Props.Streebog
import Verif.Props.Jh
import Verif.Props.Shabal
/- C27 (output sizes) and C46 (truncation) for every variable-output core of the library, through both wrappers:
`CtVariableCoreWrapper` (size fixed by the type) and `RtVariableCoreWrapper` (size given at run time). -/
namespace Hashes

/-- The variable-output cores of the library (`grep "VariableOutputCore for" /repo`) with the output sizes (in bytes) their
constructor accepts and the side of the full output they keep. -/
inductive Variable : {σ : Type} → VarCore σ → (Nat → Prop) → TruncSide → Prop
  | sha256 : Variable Sha256.varCore (· ∈ [28, 32]) .left
  | sha512 : Variable Sha512.varCore (· ∈ [28, 32, 48, 64]) .left
  | streebog : Variable Streebog.varCore (· ∈ [32, 64]) .right
  | jh : Variable Jh.varCore (· ∈ [28, 32, 48, 64]) .right
  | shabal : Variable Shabal.varCore (· ∈ [24, 28, 32, 48, 64]) .right
  | groestlShort : Variable (Groestl.varCore Groestl.short) (· ≤ 32) .right
  | groestlLong : Variable (Groestl.varCore Groestl.long) (· ≤ 64) .right
  | kupynaShort : Variable (Kupyna.varCore Kupyna.short) (· ≤ 32) .right
  | kupynaLong : Variable (Kupyna.varCore Kupyna.long) (fun n => 32 ≤ n ∧ n ≤ 64) .right
  | blake2b : Variable (Blake2.varCore Blake2.cfgB) (· ≤ 64) .left
  | blake2s : Variable (Blake2.varCore Blake2.cfgS) (· ≤ 32) .left

/-- What the proofs below use about a variable-output core. -/
structure VarFacts {σ : Type} (v : VarCore σ) (ok : Nat → Prop) (side : TruncSide) : Prop where
  lawful : v.Lawful
  sizes : ∀ n, (v.new n).isSome ↔ ok n
  le : ∀ n, ok n → n ≤ v.outLen
  len : ∀ s b, (v.finalizeFull s b).length = v.outLen
  side_eq : v.side = side

theorem Variable.facts {σ : Type} {v : VarCore σ} {ok : Nat → Prop} {side : TruncSide} (h : Variable v ok side) :
    VarFacts v ok side := by
  cases h with
  | sha256 =>
    refine ⟨Sha256.lawful, fun n => ?_, ?_, fun s b => ?_, rfl⟩
    · simp only [Sha256.varCore, Sha256.new]; split <;> simp_all
    · simp [Sha256.varCore]
    · simp only [Sha256.varCore, Sha256.finalizeFull, length_bytesOfWordsBE]; rfl
  | sha512 =>
    refine ⟨Sha512.lawful, fun n => ?_, ?_, fun s b => ?_, rfl⟩
    · simp only [Sha512.varCore, Sha512.new]; split <;> simp_all
    · simp [Sha512.varCore]
    · simp only [Sha512.varCore, Sha512.finalizeFull, length_bytesOfWordsBE]; rfl
  | streebog =>
    refine ⟨Streebog.lawful, fun n => ?_, ?_, fun s b => ?_, rfl⟩
    · simp only [Streebog.varCore, Streebog.new]; split <;> simp_all
    · simp [Streebog.varCore]
    · simp only [Streebog.varCore, Streebog.finalizeFull, Streebog.toBytes, length_bytesOfWordsLE]; rfl
  | jh =>
    refine ⟨Jh.lawful, fun n => ?_, ?_, fun s b => ?_, rfl⟩
    · simp only [Jh.varCore, Jh.new]; split <;> simp_all
    · simp [Jh.varCore]
    · simp only [Jh.varCore, Jh.finalizeFull, List.length_drop, length_bytesOfWordsLE]; rfl
  | shabal =>
    refine ⟨Shabal.lawful, fun n => ?_, ?_, fun s b => ?_, rfl⟩
    · simp only [Shabal.varCore, Shabal.new]; split <;> simp_all
    · simp [Shabal.varCore]
    · simp only [Shabal.varCore, Shabal.finalizeFull, length_bytesOfWordsLE, Arr.length_toList]
  | groestlShort =>
    refine ⟨Groestl.lawful (by decide), fun n => ?_, fun n h => h, fun s b => ?_, rfl⟩
    · simp [Groestl.varCore, Groestl.new, Groestl.short]
    · simp only [Groestl.varCore, Groestl.finalizeFull, length_bytesOfWordsBE, List.length_drop, Arr.length_toList]; rfl
  | groestlLong =>
    refine ⟨Groestl.lawful (by decide), fun n => ?_, fun n h => h, fun s b => ?_, rfl⟩
    · simp [Groestl.varCore, Groestl.new, Groestl.long]
    · simp only [Groestl.varCore, Groestl.finalizeFull, length_bytesOfWordsBE, List.length_drop, Arr.length_toList]; rfl
  | kupynaShort =>
    refine ⟨Kupyna.lawful (by decide), fun n => ?_, fun n h => h, fun s b => ?_, rfl⟩
    · simp [Kupyna.varCore, Kupyna.new, Kupyna.short]
    · simp only [Kupyna.varCore, Kupyna.finalizeFull, length_bytesOfWordsBE, List.length_drop, Arr.length_toList]; rfl
  | kupynaLong =>
    refine ⟨Kupyna.lawful (by decide), fun n => ?_, fun n h => h.2, fun s b => ?_, rfl⟩
    · simp [Kupyna.varCore, Kupyna.new, Kupyna.long]
    · simp only [Kupyna.varCore, Kupyna.finalizeFull, length_bytesOfWordsBE, List.length_drop, Arr.length_toList]; rfl
  | blake2b =>
    refine ⟨Blake2.goodB.lawful, fun n => ?_, fun n h => h, fun s b => ?_, rfl⟩
    · have : Blake2.cfgB.bytes = 64 := rfl
      by_cases h : 64 < n
      · simp [Blake2.varCore, Blake2.new, this, h]
      · simp [Blake2.varCore, Blake2.new, Blake2.newWithParams, this, h, Nat.not_lt.1 h]
    · simp only [Blake2.varCore, Blake2.finalizeFull, length_bytesOfWordsLE]; rfl
  | blake2s =>
    refine ⟨Blake2.goodS.lawful, fun n => ?_, fun n h => h, fun s b => ?_, rfl⟩
    · have : Blake2.cfgS.bytes = 32 := rfl
      by_cases h : 32 < n
      · simp [Blake2.varCore, Blake2.new, this, h]
      · simp [Blake2.varCore, Blake2.new, Blake2.newWithParams, this, h, Nat.not_lt.1 h]
    · simp only [Blake2.varCore, Blake2.finalizeFull, length_bytesOfWordsLE]; rfl

/-- `N` bytes of a full output, from the stated side. -/
def Spec.keep (side : TruncSide) (N : Nat) (full : Bytes) : Bytes :=
  match side with
  | .left => (List.range N).map fun i => full.getD i 0
  | .right => (List.range N).map fun i => full.getD (full.length - N + i) 0

theorem truncate_eq_keep (side : TruncSide) (N : Nat) (full : Bytes) (h : N ≤ full.length) :
    truncate side N full = Spec.keep side N full := by
  cases side with
  | left =>
    refine List.ext_getElem (by simp [truncate, Spec.keep, h]) fun i h1 h2 => ?_
    simp only [truncate, List.length_take] at h1
    have : i < full.length := by omega
    simp [truncate, Spec.keep, List.getD_eq_getElem?_getD, this]
  | right =>
    refine List.ext_getElem (by simp [truncate, Spec.keep]; omega) fun i h1 h2 => ?_
    simp only [truncate, List.length_drop] at h1
    have : full.length - N + i < full.length := by omega
    simp [truncate, Spec.keep, List.getD_eq_getElem?_getD, this]

theorem length_keep (side : TruncSide) (N : Nat) (full : Bytes) : (Spec.keep side N full).length = N := by
  cases side <;> simp [Spec.keep]

section
variable {σ : Type} {v : VarCore σ} {ok : Nat → Prop} {side : TruncSide}

/-- C27. Both constructors accept exactly the listed sizes (`RtVariableCoreWrapper::new` returns `InvalidOutputSize`
otherwise; the compile-time wrapper would panic in `default`, and no public alias instantiates it with such a size). -/
theorem C27_sizes (h : Variable v ok side) (N : Nat) :
    ((v.rtNew N).isSome ↔ ok N) ∧ ((v.ct N).isSome ↔ ok N) := by
  have F := h.facts
  refine ⟨by rw [VarCore.rtNew, Option.isSome_map]; exact F.sizes N, ?_⟩
  unfold VarCore.ct
  by_cases hN : N ≤ v.outLen
  · rw [if_pos hN, Option.isSome_map]; exact F.sizes N
  · rw [if_neg hN]
    exact ⟨fun h => (by cases h), fun h => absurd (F.le N h) hN⟩

/-- The run-time wrapper's object after any sequence of updates is the compile-time one's. -/
theorem rt_updates (N : Nat) (s0 : σ) (l : List Bytes) :
    l.foldl v.rtUpdate ⟨⟨s0, BlockBuffer.empty v.bs⟩, N⟩ = ⟨(v.ctWith N s0).updates (v.ctWith N s0).new l, N⟩ := by
  have : ∀ (l : List Bytes) (x : Hasher σ), l.foldl v.rtUpdate ⟨x, N⟩ = ⟨(v.ctWith N s0).updates x l, N⟩ := by
    intro l
    induction l with
    | nil => intro x; rfl
    | cons a l ih => intro x; exact ih _
  exact this l _

/-- C27. An accepted compile-time instance outputs exactly `N` bytes, for every chunked message. -/
theorem C27_length (h : Variable v ok side) {N : Nat} {c : Core σ Bytes} (hc : v.ct N = some c) (l : List Bytes) :
    (c.finish (c.updates c.new l)).length = N := by
  have F := h.facts
  obtain ⟨hN, s0, h0, rfl⟩ := VarCore.ct_inv hc
  show (truncate v.side N _).length = N
  rw [truncate_eq_keep _ _ _ (by rw [F.len]; exact hN), length_keep]

/-- C27. `finalize_variable` of an accepted run-time instance fails (`InvalidBufferSize`) unless the caller's buffer has exactly
`N` bytes, and then writes the same `N` bytes as the compile-time instance. -/
theorem C27_rt (h : Variable v ok side) {N : Nat} {r : VarCore.Rt σ} (hr : v.rtNew N = some r) (l : List Bytes) (k : Nat) :
    (k ≠ N → v.rtFinalize (l.foldl v.rtUpdate r) k = none) ∧
    ∃ c, v.ct N = some c ∧ v.rtFinalize (l.foldl v.rtUpdate r) N = some (c.finish (c.updates c.new l)) := by
  have F := h.facts
  cases h0 : v.new N with
  | none => rw [VarCore.rtNew, h0] at hr; cases hr
  | some s0 =>
    rw [VarCore.rtNew, h0] at hr
    injection hr with hr
    subst hr
    rw [rt_updates]
    have hN : N ≤ v.outLen := F.le N ((F.sizes N).1 (by rw [h0]; rfl))
    exact ⟨fun hk => if_pos hk, _, VarCore.ct_some hN h0, if_neg (fun h => h rfl)⟩

/-- C46. In both wrappers the `N` bytes are those on the stated side of what `finalize_variable_core` writes. -/
theorem C46_side (h : Variable v ok side) {N : Nat} {s0 : σ} (h0 : v.new N = some s0) (x : Hasher σ) :
    (v.ctWith N s0).finish x = Spec.keep side N (v.finalizeFull x.core x.buf) ∧
    v.rtFinalize ⟨x, N⟩ N = some (Spec.keep side N (v.finalizeFull x.core x.buf)) := by
  have F := h.facts
  have hN : N ≤ v.outLen := F.le N ((F.sizes N).1 (by rw [h0]; rfl))
  have : truncate v.side N (v.finalizeFull x.core x.buf) = Spec.keep side N (v.finalizeFull x.core x.buf) := by
    rw [truncate_eq_keep _ _ _ (by rw [F.len]; exact hN), F.side_eq]
  exact ⟨this, by rw [← this]; exact if_neg fun h => h rfl⟩

end

/-- Sizes that the algorithms' own definitions give: FIPS 180-4; GOST R 34.11-2012; the JH, Shabal and Groestl submissions
(Groestl: short variant up to 256 bits, long variant above); DSTU 7564 (same split); RFC 7693 (1..64, 1..32). -/
inductive Standard : {σ : Type} → VarCore σ → (Nat → Prop) → Prop
  | sha256 : Standard Sha256.varCore (· ∈ [28, 32])
  | sha512 : Standard Sha512.varCore (· ∈ [28, 32, 48, 64])
  | streebog : Standard Streebog.varCore (· ∈ [32, 64])
  | jh : Standard Jh.varCore (· ∈ [28, 32, 48, 64])
  | shabal : Standard Shabal.varCore (· ∈ [24, 28, 32, 48, 64])
  | groestlShort : Standard (Groestl.varCore Groestl.short) (fun n => 1 ≤ n ∧ n ≤ 32)
  | groestlLong : Standard (Groestl.varCore Groestl.long) (fun n => 33 ≤ n ∧ n ≤ 64)
  | kupynaShort : Standard (Kupyna.varCore Kupyna.short) (fun n => 1 ≤ n ∧ n ≤ 32)
  | kupynaLong : Standard (Kupyna.varCore Kupyna.long) (fun n => 33 ≤ n ∧ n ≤ 64)
  | blake2b : Standard (Blake2.varCore Blake2.cfgB) (fun n => 1 ≤ n ∧ n ≤ 64)
  | blake2s : Standard (Blake2.varCore Blake2.cfgS) (fun n => 1 ≤ n ∧ n ≤ 32)

/-- C27. Every size of the algorithm's definition is accepted. -/
theorem C27_standard {σ : Type} {v : VarCore σ} {std : Nat → Prop} (h : Standard v std) (N : Nat) (hN : std N) :
    (v.rtNew N).isSome ∧ (v.ct N).isSome := by
  have aux : ∀ {ok side}, Variable v ok side → ok N → (v.rtNew N).isSome ∧ (v.ct N).isSome :=
    fun hv hk => ⟨(C27_sizes hv N).1.2 hk, (C27_sizes hv N).2.2 hk⟩
  cases h with
  | sha256 => exact aux .sha256 hN
  | sha512 => exact aux .sha512 hN
  | streebog => exact aux .streebog hN
  | jh => exact aux .jh hN
  | shabal => exact aux .shabal hN
  | groestlShort => exact aux .groestlShort hN.2
  | groestlLong => exact aux .groestlLong hN.2
  | kupynaShort => exact aux .kupynaShort hN.2
  | kupynaLong => exact aux .kupynaLong ⟨by omega, hN.2⟩
  | blake2b => exact aux .blake2b hN.2
  | blake2s => exact aux .blake2s hN.2

/-- C27, deviation from the definitions: the converse fails for exactly these sizes — zero bytes (BLAKE2, Groestl, Kupyna
short), Groestl long with at most 32 bytes, Kupyna long with 32 bytes. -/
theorem C27_nonstandard {σ : Type} {v : VarCore σ} {std : Nat → Prop} (h : Standard v std) (N : Nat) (hN : ¬ std N)
    (ha : (v.rtNew N).isSome) : N = 0 ∨ (HEq v (Groestl.varCore Groestl.long) ∧ N ≤ 32) ∨
      (HEq v (Kupyna.varCore Kupyna.long) ∧ N = 32) := by
  cases h with
  | sha256 => exact absurd ((C27_sizes .sha256 N).1.1 ha) hN
  | sha512 => exact absurd ((C27_sizes .sha512 N).1.1 ha) hN
  | streebog => exact absurd ((C27_sizes .streebog N).1.1 ha) hN
  | jh => exact absurd ((C27_sizes .jh N).1.1 ha) hN
  | shabal => exact absurd ((C27_sizes .shabal N).1.1 ha) hN
  | groestlShort => have := (C27_sizes .groestlShort N).1.1 ha; omega
  | groestlLong => have := (C27_sizes .groestlLong N).1.1 ha; exact .inr (.inl ⟨.rfl, by omega⟩)
  | kupynaShort => have := (C27_sizes .kupynaShort N).1.1 ha; omega
  | kupynaLong => have := (C27_sizes .kupynaLong N).1.1 ha; exact .inr (.inr ⟨.rfl, by omega⟩)
  | blake2b => have := (C27_sizes .blake2b N).1.1 ha; omega
  | blake2s => have := (C27_sizes .blake2s N).1.1 ha; omega

/-- Concrete case: the sizes of the deviation are really accepted, and a rejected one is rejected. -/
example : ((Groestl.varCore Groestl.long).rtNew 20).isSome = true ∧ ((Kupyna.varCore Kupyna.long).rtNew 32).isSome = true ∧
    ((Blake2.varCore Blake2.cfgB).rtNew 0).isSome = true ∧ ((Blake2.varCore Blake2.cfgB).rtNew 65).isSome = false ∧
    (Sha512.varCore.rtNew 33).isSome = false ∧ ((Kupyna.varCore Kupyna.long).rtNew 31).isSome = false := by decide +kernel

/-! ### C46: the digests of the specifications, cut -/

/-- C46, SHA-2: leftmost `N` bytes of the final chaining value from the initial value of that size. -/
theorem C46_sha256 (N : Nat) (iv : V8 W32) (hN : (N, iv) ∈ [(28, Spec.Sha256.IV224), (32, Spec.Sha256.IV256)])
    (c : Core Sha256.State Bytes) (hc : Sha256.varCore.ct N = some c) (l : List Bytes) :
    c.finish (c.updates c.new l) = Spec.keep .left N (bytesOfWordsBE (Spec.Sha256.chain iv l.flatten).toList) := by
  obtain ⟨_, s0, h0, rfl⟩ := VarCore.ct_inv hc
  rw [C01_digest_of_chunks _ (Sha256.lawful.ct N s0)]
  have : s0 = ⟨iv, 0⟩ ∧ N ≤ 32 := by
    simp only [List.mem_cons, Prod.mk.injEq, List.not_mem_nil, or_false] at hN
    rcases hN with ⟨rfl, rfl⟩ | ⟨rfl, rfl⟩ <;> (injection h0 with h0; subst h0)
    · exact ⟨by rw [Sha256.iv224_eq], by decide⟩
    · exact ⟨by rw [Sha256.iv256_eq], by decide⟩
  rw [this.1, Sha256.digest_chain]
  exact truncate_eq_keep .left N _ (by rw [Sha256.length_be8]; exact this.2)

theorem C46_sha512 (N : Nat) (iv : V8 W64) (hN : (N, iv) ∈ [(28, Spec.Sha512.ivGen Spec.Sha512.name224),
      (32, Spec.Sha512.ivGen Spec.Sha512.name256), (48, Spec.Sha512.IV384), (64, Spec.Sha512.IV512)])
    (c : Core Sha512.State Bytes) (hc : Sha512.varCore.ct N = some c) (l : List Bytes) :
    c.finish (c.updates c.new l) = Spec.keep .left N (bytesOfWordsBE (Spec.Sha512.chain iv l.flatten).toList) := by
  obtain ⟨_, s0, h0, rfl⟩ := VarCore.ct_inv hc
  rw [C01_digest_of_chunks _ (Sha512.lawful.ct N s0)]
  have : s0 = ⟨iv, 0⟩ ∧ N ≤ 64 := by
    simp only [List.mem_cons, Prod.mk.injEq, List.not_mem_nil, or_false] at hN
    rcases hN with ⟨rfl, rfl⟩ | ⟨rfl, rfl⟩ | ⟨rfl, rfl⟩ | ⟨rfl, rfl⟩ <;> (injection h0 with h0; subst h0)
    · exact ⟨by rw [Sha512.iv224_eq], by decide⟩
    · exact ⟨by rw [Sha512.iv256_eq], by decide⟩
    · exact ⟨by rw [Sha512.iv384_eq], by decide⟩
    · exact ⟨by rw [Sha512.iv512_eq], by decide⟩
  rw [this.1, Sha512.digest_chain]
  exact truncate_eq_keep .left N _ (by rw [length_bytesOfWordsBE]; exact this.2)

/-- C46, Kupyna: the initial value does not depend on the size, so a shorter digest is the end of every longer one. -/
theorem C46_kupyna (g : Kupyna.Cfg) (hg : g = Kupyna.short ∨ g = Kupyna.long) (N M : Nat) (hNM : N ≤ M)
    (c d : Core (Kupyna.State g.cols) Bytes) (hc : Kupyna.core g N = some c) (hd : Kupyna.core g M = some d) (l : List Bytes) :
    c.finish (c.updates c.new l) = Spec.keep .right N (d.finish (d.updates d.new l)) := by
  obtain ⟨hN, s0, h0, rfl⟩ := VarCore.ct_inv hc
  obtain ⟨hM, s1, h1, rfl⟩ := VarCore.ct_inv hd
  have e : ∀ {K s}, Kupyna.new g K = some s → s = Kupyna.init g := by
    intro K s h
    unfold Kupyna.new at h
    split at h
    · cases h
    · injection h with h; exact h.symm
  obtain rfl := e h0
  obtain rfl := e h1
  have hl : ∀ s b, ((Kupyna.varCore g).finalizeFull s b).length = (Kupyna.varCore g).outLen := by
    rcases hg with rfl | rfl
    · exact (Variable.kupynaShort.facts).len
    · exact (Variable.kupynaLong.facts).len
  have hx : ((Kupyna.varCore g).ctWith N (Kupyna.init g)).updates ((Kupyna.varCore g).ctWith N (Kupyna.init g)).new l =
      ((Kupyna.varCore g).ctWith M (Kupyna.init g)).updates ((Kupyna.varCore g).ctWith M (Kupyna.init g)).new l := rfl
  rw [hx]
  generalize ((Kupyna.varCore g).ctWith M (Kupyna.init g)).updates ((Kupyna.varCore g).ctWith M (Kupyna.init g)).new l = x
  show truncate .right N ((Kupyna.varCore g).finalizeFull x.core x.buf) =
    Spec.keep .right N (truncate .right M ((Kupyna.varCore g).finalizeFull x.core x.buf))
  have hl' := hl x.core x.buf
  generalize (Kupyna.varCore g).finalizeFull x.core x.buf = full at hl'
  rw [← hl'] at hM hN
  have hlen : (truncate .right M full).length = M := by rw [truncate_eq_keep _ _ _ hM, length_keep]
  rw [← truncate_eq_keep .right N _ (by rw [hlen]; exact hNM)]
  simp only [truncate, List.length_drop, List.drop_drop]
  congr 1; omega

/-- Concrete cases: both sizes exist, and what is kept. -/
example : (Kupyna.core Kupyna.short 8).isSome = true ∧ (Kupyna.core Kupyna.short 32).isSome = true ∧
    Spec.keep .right 2 [1, 2, 3] = [2, 3] ∧ Spec.keep .left 2 [1, 2, 3] = [1, 2] := by decide +kernel

/-- C46, Groestl: rightmost `N` bytes of `P(x) ⊕ x`, where `x` is the chaining value from the initial value of that size. -/
theorem C46_groestl (N : Nat) (p : Spec.Groestl.Params) (g : Groestl.Cfg)
    (hg : (p = Spec.Groestl.p512 ∧ g = Groestl.short ∧ N ≤ 32) ∨ (p = Spec.Groestl.p1024 ∧ g = Groestl.long ∧ N ≤ 64))
    (c : Core (Groestl.State g.cols) Bytes) (hc : Groestl.core g N = some c) (l : List Bytes) :
    c.finish (c.updates c.new l) =
      let x := (chunks (8 * p.cols) (Spec.Groestl.pad p l.flatten)).foldl (Spec.Groestl.f p) (Spec.Groestl.iv p N)
      Spec.keep .right N (Spec.gridXor p.cols 8 (Spec.Groestl.permP p x) x).flatten := by
  have len : ∀ x y, (Spec.gridXor p.cols 8 x y).flatten.length = 8 * p.cols := by
    intro x y
    simp [Spec.gridXor, Spec.grid, List.length_flatten, Function.comp_def, List.map_const', Nat.mul_comm]
  have e : c.finish (c.updates c.new l) = Spec.Groestl.hash p N l.flatten := by
    rcases hg with ⟨rfl, rfl, hN⟩ | ⟨rfl, rfl, hN⟩
    · obtain ⟨c', h1, h2⟩ := C35_short N hN
      rw [hc] at h1; injection h1 with h1; subst h1; exact h2 l
    · obtain ⟨c', h1, h2⟩ := C35_long N hN
      rw [hc] at h1; injection h1 with h1; subst h1; exact h2 l
  have hp : N ≤ 8 * p.cols := by
    rcases hg with ⟨rfl, rfl, hN⟩ | ⟨rfl, rfl, hN⟩
    · exact Nat.le_trans hN (by decide)
    · exact Nat.le_trans hN (by decide)
  rw [e]
  exact truncate_eq_keep .right N _ (by rw [len]; exact hp)

/-- C46, BLAKE2: leftmost `N` bytes of the final state for the parameter block of that size. -/
theorem C46_blake2b (N : Nat) (c : Core (Blake2.State 64) Bytes) (hc : Blake2.core Blake2.cfgB N = some c) (l : List Bytes)
    (hl : l.flatten.length < 2 ^ 64) : c.finish (c.updates c.new l) = Spec.keep .left N (bytesOfWordsLE
      (Spec.Blake2.process Spec.Blake2.b (Spec.Blake2.start Spec.Blake2.b (Spec.Blake2.paramBlock 64 [] [] 0 N)) l.flatten)) := by
  rcases C24_blake2b N l hl with ⟨_, h⟩ | ⟨hN, c', h, e⟩
  · rw [h] at hc; cases hc
  · rw [hc] at h; injection h with h; subst h
    have hlen := C27_length .blake2b hc l
    rw [e] at hlen ⊢
    simp only [Spec.Blake2.hash, if_true, List.nil_append, List.length_nil] at hlen ⊢
    exact truncate_eq_keep .left N _ (by rw [List.length_take] at hlen; omega)

theorem C46_blake2s (N : Nat) (c : Core (Blake2.State 32) Bytes) (hc : Blake2.core Blake2.cfgS N = some c) (l : List Bytes) :
    c.finish (c.updates c.new l) = Spec.keep .left N (bytesOfWordsLE
      (Spec.Blake2.process Spec.Blake2.s (Spec.Blake2.start Spec.Blake2.s (Spec.Blake2.paramBlock 32 [] [] 0 N)) l.flatten)) := by
  rcases C24_blake2s N l with ⟨_, h⟩ | ⟨hN, c', h, e⟩
  · rw [h] at hc; cases hc
  · rw [hc] at h; injection h with h; subst h
    have hlen := C27_length .blake2s hc l
    rw [e] at hlen ⊢
    simp only [Spec.Blake2.hash, if_true, List.nil_append, List.length_nil] at hlen ⊢
    exact truncate_eq_keep .left N _ (by rw [List.length_take] at hlen; omega)

/-- C46, JH: rightmost `N` bytes of the last state (of 128 bytes). -/
theorem C46_jh (N : Nat) (c : Core Jh.State Bytes) (hc : Jh.core N = some c) (l : List Bytes) (hl : 8 * l.flatten.length < 2 ^ 64) :
    c.finish (c.updates c.new l) =
      Spec.keep .right N ((chunks 64 (Spec.Jh.pad l.flatten)).foldl Spec.Jh.F8 (Spec.Jh.iv N)) := by
  have e := C38_jh N c hc l hl
  have hlen := C27_length .jh hc l
  obtain ⟨hN, _⟩ := VarCore.ct_inv hc
  have hN' : N ≤ 64 := hN
  rw [e] at hlen ⊢
  simp only [Spec.Jh.hash, List.length_drop] at hlen ⊢
  by_cases h0 : N = 0
  · subst h0
    exact absurd ((C38_sizes 0).1 (by rw [hc]; rfl)) (by decide)
  have h128 : ((chunks 64 (Spec.Jh.pad l.flatten)).foldl Spec.Jh.F8 (Spec.Jh.iv N)).length = 128 := by omega
  rw [← truncate_eq_keep .right N _ (by omega)]
  simp only [truncate, h128]

/-- C46, Shabal: rightmost `N` bytes of the register read after the last final round. -/
theorem C46_shabal (N : Nat) (c : Core Shabal.State Bytes) (hc : Shabal.core N = some c) (l : List Bytes) :
    c.finish (c.updates c.new l) =
      let bl := chunks 64 (Spec.mdPad 64 0x80 [] l.flatten)
      let s := (List.range bl.length).foldl (fun s i =>
        Spec.Shabal.round (BitVec.ofNat 64 (i + 1)) s (Spec.Shabal.words (bl.getD i []))) (Spec.Shabal.iv N)
      Spec.keep .right N (bytesOfWordsLE ((List.range 3).foldl (fun s _ =>
        Spec.Shabal.round (BitVec.ofNat 64 bl.length) s (Spec.Shabal.words (bl.getD (bl.length - 1) []))) s).C.toList) := by
  have e := C41_shabal N c hc l
  have hlen := C27_length .shabal hc l
  obtain ⟨hN, _⟩ := VarCore.ct_inv hc
  have hN' : N ≤ 64 := hN
  rw [e] at hlen ⊢
  simp only [Spec.Shabal.hash] at hlen ⊢
  rw [← truncate_eq_keep .right N _ (by rw [length_bytesOfWordsLE, Arr.length_toList]; exact hN')]
  simp only [truncate, length_bytesOfWordsLE, Arr.length_toList]

end Hashes
