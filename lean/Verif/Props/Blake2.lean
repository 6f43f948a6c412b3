import Verif.Props.Streaming
import Verif.Proof.Blake2
/- C24, C25, C26: BLAKE2. -/
namespace Hashes
open Blake2

/-! ### C24 -/

theorem Blake2.hash_of_chunks {n : Nat} {c : Cfg (8 * n)} {V : Spec.Blake2.Variant (8 * n)} (g : Good n c V)
    {persona : Bytes} {out : Nat} {s : State (8 * n)} (hs : newWithParams c [] persona 0 out = some s)
    (l : List Bytes) (hd : ∀ k ≤ l.flatten.length, CountOk c k) :
    ((varCore c).ctWith out s).finish (((varCore c).ctWith out s).updates ((varCore c).ctWith out s).new l) =
      Spec.Blake2.hash V out [] [] persona l.flatten := by
  have L := g.lawful.ct out s
  have r := (Core.Rep.new L).updates L l
  rw [List.nil_append] at r
  have := g.finish hs r hd
  rw [Spec.Blake2.hash, if_pos rfl, List.nil_append]
  exact congrArg (List.take out) this

theorem Blake2.core_some {n : Nat} {c : Cfg (8 * n)} {V : Spec.Blake2.Variant (8 * n)} (g : Good n c V) (out : Nat) :
    (8 * n < out ∧ core c out = none) ∨
    (out ≤ 8 * n ∧ ∃ s, newWithParams c [] [] 0 out = some s ∧ core c out = some ((varCore c).ctWith out s)) := by
  rcases Nat.lt_or_ge (8 * n) out with h | h
  · left; refine ⟨h, ?_⟩
    simp only [core, VarCore.ct, varCore, g.hb]
    rw [if_neg (by omega)]
  · right; refine ⟨h, ?_⟩
    rcases params_eq g.h4 g.M g.hb g.head [] [] 0 out with ⟨h1, -⟩ | ⟨-, s, h2, -⟩
    · exact absurd ⟨Nat.zero_le _, h, Nat.zero_le _, Nat.zero_le _⟩ h1
    · refine ⟨s, h2, ?_⟩
      simp only [core, VarCore.ct, varCore, g.hb]
      rw [if_pos h, new, g.hb, if_neg (by omega), h2]
      rfl

/-- C24. `Blake2b<N>`: every output size 1..64 (0 is accepted too) is accepted, others are not, and over any chunking of a
message shorter than 2^64 bytes (the width of the code's byte counter) the digest is the one of RFC 7693. -/
theorem C24_blake2b (out : Nat) (l : List Bytes) (hl : l.flatten.length < 2 ^ 64) :
    (64 < out ∧ core cfgB out = none) ∨
    (out ≤ 64 ∧ ∃ c, core cfgB out = some c ∧
      c.finish (c.updates c.new l) = Spec.Blake2.hash Spec.Blake2.b out [] [] [] l.flatten) := by
  rcases core_some goodB out with h | ⟨h, s, hs, hc⟩
  · exact .inl h
  · exact .inr ⟨h, _, hc, hash_of_chunks goodB hs l (fun k hk => countB (by omega))⟩

/-- C24. `Blake2s<N>`: as above, with sizes 1..32, for messages of any length (RFC 7693 allows up to 2^64 bytes). -/
theorem C24_blake2s (out : Nat) (l : List Bytes) :
    (32 < out ∧ core cfgS out = none) ∨
    (out ≤ 32 ∧ ∃ c, core cfgS out = some c ∧
      c.finish (c.updates c.new l) = Spec.Blake2.hash Spec.Blake2.s out [] [] [] l.flatten) := by
  rcases core_some goodS out with h | ⟨h, s, hs, hc⟩
  · exact .inl h
  · exact .inr ⟨h, _, hc, hash_of_chunks goodS hs l (fun k _ => countS k)⟩

/-- C24. One round of the 4-lane code performs exactly the eight G mixings of RFC 7693 §3.2, for any words and any schedule. -/
theorem C24_round (m : Nat → W64) (m' : Nat → W32) (σ : List Nat) (v : V4 (Vec 64)) (v' : V4 (Vec 32)) :
    flat (Blake2.round cfgB m σ v) = Spec.Blake2.round Spec.Blake2.b m σ (flat v) ∧
    flat (Blake2.round cfgS m' σ v') = Spec.Blake2.round Spec.Blake2.s m' σ (flat v') :=
  ⟨round_eq matchB m σ v, round_eq matchS m' σ v'⟩

/-- C24. `new_customized(persona)`: panics exactly when the personalisation is longer than 16 (8) bytes or the size is out of
range; otherwise the digest is that of the personalised parameter block. -/
theorem C24_customized (persona : Bytes) (out : Nat) (l : List Bytes) (hl : l.flatten.length < 2 ^ 64) :
    (¬ (persona.length ≤ 16 ∧ out ≤ 64) ∧ customized cfgB persona out = none ∨
      ∃ c, customized cfgB persona out = some c ∧
        c.finish (c.updates c.new l) = Spec.Blake2.hash Spec.Blake2.b out [] [] persona l.flatten) ∧
    (¬ (persona.length ≤ 8 ∧ out ≤ 32) ∧ customized cfgS persona out = none ∨
      ∃ c, customized cfgS persona out = some c ∧
        c.finish (c.updates c.new l) = Spec.Blake2.hash Spec.Blake2.s out [] [] persona l.flatten) := by
  constructor
  · rcases params_eq goodB.h4 goodB.M goodB.hb goodB.head [] persona 0 out with ⟨h1, h2⟩ | ⟨-, s, h2, -⟩
    · left; exact ⟨fun h => h1 ⟨Nat.zero_le _, h.2, Nat.zero_le _, h.1⟩, by rw [customized, h2]; rfl⟩
    · right; exact ⟨_, by rw [customized, h2]; rfl, hash_of_chunks goodB h2 l (fun k hk => countB (by omega))⟩
  · rcases params_eq goodS.h4 goodS.M goodS.hb goodS.head [] persona 0 out with ⟨h1, h2⟩ | ⟨-, s, h2, -⟩
    · left; exact ⟨fun h => h1 ⟨Nat.zero_le _, h.2, Nat.zero_le _, h.1⟩, by rw [customized, h2]; rfl⟩
    · right; exact ⟨_, by rw [customized, h2]; rfl, hash_of_chunks goodS h2 l (fun k _ => countS k)⟩

/-- The initialisation constants are the fractional parts of the square roots of the first eight primes:
`2^w·⌊√p⌋ + IV = ⌊2^w·√p⌋`. -/
theorem C24_iv : ∀ i < 8,
    (∃ k < 5, let x := 2 ^ 64 * k + (Spec.Blake2.b.IV.getD i 0).toNat
      x * x ≤ Spec.Blake2.ivPrime i * 2 ^ 128 ∧ Spec.Blake2.ivPrime i * 2 ^ 128 < (x + 1) * (x + 1)) ∧
    (∃ k < 5, let x := 2 ^ 32 * k + (Spec.Blake2.s.IV.getD i 0).toNat
      x * x ≤ Spec.Blake2.ivPrime i * 2 ^ 64 ∧ Spec.Blake2.ivPrime i * 2 ^ 64 < (x + 1) * (x + 1)) := by
  decide +kernel

/-- Concrete cases: BLAKE2b-512("abc") and BLAKE2s-256("abc") (RFC 7693 appendices A and B). -/
example : ((core cfgB 64).map fun c => (c.finish (c.updates c.new [[0x61], [0x62, 0x63]])).take 8) =
    some [0xba, 0x80, 0xa5, 0x3f, 0x98, 0x1c, 0x4d, 0x0d] := by decide +kernel
example : ((core cfgS 32).map fun c => (c.finish (c.updates c.new [[0x61], [0x62, 0x63]])).take 8) =
    some [0x50, 0x8c, 0x5e, 0x8c, 0x32, 0x7c, 0x14, 0xe2] := by decide +kernel

/-! ### C25 -/

/-- The messages whose tags a call sequence requests: what was absorbed since creation or the last reset. -/
def Spec.macMessages (log : Bytes) : List MacOp → List Bytes
  | [] => []
  | .update d :: ops => macMessages (log ++ d) ops
  | .reset :: ops => macMessages [] ops
  | .finalizeReset :: ops => log :: macMessages [] ops
  | .finalizeClone :: ops => log :: macMessages log ops

theorem Blake2.mac_run {n : Nat} {c : Cfg (8 * n)} {V : Spec.Blake2.Variant (8 * n)} (g : Good n c V)
    {salt persona : Bytes} {kk out : Nat} {s0 : State (8 * n)} (hs : newWithParams c salt persona kk out = some s0)
    {kb : Option Bytes} (hkb : ∀ k, kb = some k → k.length = c.bytes) (ops : List MacOp) {m : Mac (8 * n)} {log : Bytes}
    (r : MacRep c s0 kb m (startOf c kb ++ log))
    (hd : ∀ x ∈ Spec.macMessages log ops, ∀ k ≤ (startOf c kb ++ x).length, CountOk c k) :
    m.run c out ops = (Spec.macMessages log ops).map fun x => (bytesOfWordsLE (Spec.Blake2.process V
      (Spec.Blake2.start V (Spec.Blake2.paramBlock (8 * n) salt persona kk out)) (startOf c kb ++ x))).take out := by
  have ht : s0.t = 0 ∧ s0.h0 = s0.h := by
    rcases params_eq g.h4 g.M g.hb g.head salt persona kk out with ⟨-, h0⟩ | ⟨-, s', h1, h2, h3, -⟩
    · rw [h0] at hs; cases hs
    · rw [h1] at hs; cases hs; exact ⟨h2, h3⟩
  induction ops generalizing m log with
  | nil => rfl
  | cons op ops ih =>
    have hreset := r.reset g ht.1 ht.2 hkb
    cases op with
    | update d =>
      have := r.update g d
      rw [List.append_assoc] at this
      exact ih this hd
    | reset => exact ih (by rw [List.append_nil]; exact hreset) hd
    | finalizeReset =>
      simp only [Mac.run, Spec.macMessages, List.map_cons]
      simp only [Spec.macMessages, List.mem_cons, forall_eq_or_imp] at hd
      rw [ih (by rw [List.append_nil]; exact hreset) hd.2]
      congr 1
      exact congrArg _ (g.finish hs r.rep hd.1)
    | finalizeClone =>
      simp only [Mac.run, Spec.macMessages, List.map_cons]
      simp only [Spec.macMessages, List.mem_cons, forall_eq_or_imp] at hd
      rw [ih r hd.2]
      congr 1
      exact congrArg _ (g.finish hs r.rep hd.1)

theorem Blake2.mac_spec {n : Nat} {c : Cfg (8 * n)} {V : Spec.Blake2.Variant (8 * n)} (g : Good n c V)
    {salt persona key : Bytes} {out : Nat} {s0 : State (8 * n)}
    (hs : newWithParams c salt persona key.length out = some s0) (ops : List MacOp)
    (hd : ∀ x ∈ Spec.macMessages [] ops, ∀ k ≤ x.length + c.blockSize, CountOk c k) :
    (key ≠ [] → key.length ≤ c.bytes →
      Mac.run c out ⟨s0, bufferOf (padded c.blockSize key), some (padded c.bytes key)⟩ ops =
        (Spec.macMessages [] ops).map (Spec.Blake2.hash V out key salt persona)) ∧
    (key = [] →
      Mac.run c out ⟨s0, BlockBuffer.empty c.blockSize, none⟩ ops =
        (Spec.macMessages [] ops).map (Spec.Blake2.hash V out [] salt persona)) ∧
    (key.length ≤ c.bytes →
      Mac.run c out ⟨s0, bufferOf (padded c.blockSize key), some (padded c.bytes key)⟩ ops =
        (Spec.macMessages [] ops).map fun x => (bytesOfWordsLE (Spec.Blake2.process V
      (Spec.Blake2.start V (Spec.Blake2.paramBlock (8 * n) salt persona key.length out))
        (Spec.Blake2.zeroPad c.blockSize key ++ x))).take out) := by
  have hb := g.hb; have hbs := g.hbs
  have K : key.length ≤ c.bytes →
      Mac.run c out ⟨s0, bufferOf (padded c.blockSize key), some (padded c.bytes key)⟩ ops =
        (Spec.macMessages [] ops).map fun x => (bytesOfWordsLE (Spec.Blake2.process V
      (Spec.Blake2.start V (Spec.Blake2.paramBlock (8 * n) salt persona key.length out))
        (Spec.Blake2.zeroPad c.blockSize key ++ x))).take out := by
    intro hk
    have hz : Spec.Blake2.zeroPad c.blockSize (padded c.bytes key) = Spec.Blake2.zeroPad c.blockSize key := by
      rw [padded_eq hk, zeroPad_zeroPad hk (by omega)]
    have hp : (padded c.bytes key).length = c.bytes := by rw [padded_eq hk]; exact length_zeroPad hk
    have := mac_run (m := ⟨s0, bufferOf (padded c.blockSize key), some (padded c.bytes key)⟩) g hs
      (kb := some (padded c.bytes key)) (log := []) (fun k h => by cases h; exact hp) ops ⟨?_, rfl⟩ ?_
    · rw [this]; simp only [startOf, hz]
    · simp only [startOf, hz, List.append_nil]
      rw [padded_eq (by omega)]
      exact rep_block g s0 (length_zeroPad (by omega))
    · intro x hx k hk'
      apply hd x hx
      simp only [startOf, hz, List.length_append, length_zeroPad (show key.length ≤ c.blockSize by omega)] at hk'
      omega
  refine ⟨fun hne hk => ?_, fun he => ?_, K⟩
  · rw [K hk]
    apply List.map_congr_left
    intro x _
    rw [Spec.Blake2.hash, if_neg hne, ← g.M.bb]
  · subst he
    have := mac_run (m := ⟨s0, BlockBuffer.empty c.blockSize, none⟩) g hs (kb := none) (log := []) (by simp) ops
      ⟨Core.Rep.new (g.lawful.ct 0 s0), rfl⟩ (fun x hx k hk => hd x hx k (by simp [startOf] at hk; omega))
    rw [this]
    rfl

theorem Blake2.newSalt_ok {n : Nat} {c : Cfg (8 * n)} {V : Spec.Blake2.Variant (8 * n)} (g : Good n c V) {out : Nat}
    {key : Option Bytes} {salt persona : Bytes} {m : Mac (8 * n)}
    (h : newWithSaltAndPersonal c out key salt persona = .ok m) :
    ∃ s0, newWithParams c salt persona (key.getD []).length out = some s0 ∧ (key.getD []).length ≤ c.bytes ∧
      (key = none ∧ m = ⟨s0, BlockBuffer.empty c.blockSize, none⟩ ∨
       ∃ k, key = some k ∧ k ≠ [] ∧ m = ⟨s0, bufferOf (padded c.blockSize k), some (padded c.bytes k)⟩) := by
  simp only [newWithSaltAndPersonal] at h
  have ekl : keyLen key = (key.getD []).length := by cases key <;> rfl
  rw [ekl] at h
  split at h
  · cases h
  · rename_i hc
    rcases params_eq g.h4 g.M g.hb g.head salt persona (key.getD []).length out with ⟨h1, h2⟩ | ⟨h1, s, h2, -⟩
    · rw [h2] at h; cases h
    · rw [h2] at h
      refine ⟨s, h2, by rw [g.hb]; exact h1.1, ?_⟩
      cases key with
      | none => left; simp only [Outcome.ok.injEq] at h; exact ⟨rfl, h.symm⟩
      | some k =>
        right
        refine ⟨k, rfl, ?_, ?_⟩
        · intro hk; subst hk; simp at hc
        · simp only [Outcome.ok.injEq] at h; exact h.symm

/-- C25. `Blake2bMac` built by `new_with_salt_and_personal` (keyed or unkeyed), driven by any sequence of updates, resets,
`finalize_reset`s and cloned finalizes: every tag is the keyed BLAKE2b (RFC 7693, with salt and personalisation) of the bytes
absorbed since creation or the last reset. -/
theorem C25_blake2bMac (out : Nat) (key : Option Bytes) (salt persona : Bytes) (m : Mac 64)
    (h : newWithSaltAndPersonal cfgB out key salt persona = .ok m) (ops : List MacOp)
    (hl : ∀ x ∈ Spec.macMessages [] ops, x.length + 128 < 2 ^ 64) :
    m.run cfgB out ops =
      (Spec.macMessages [] ops).map (Spec.Blake2.hash Spec.Blake2.b out (key.getD []) salt persona) := by
  obtain ⟨s0, hs, hk, h⟩ := newSalt_ok goodB h
  have M := mac_spec goodB hs ops (fun x hx k hk => countB (by
    have := hl x hx; rw [goodB.hbs] at hk; omega))
  rcases h with ⟨rfl, rfl⟩ | ⟨k, rfl, hne, rfl⟩
  · exact M.2.1 rfl
  · exact M.1 hne hk

/-- C25. `Blake2sMac`, as above. -/
theorem C25_blake2sMac (out : Nat) (key : Option Bytes) (salt persona : Bytes) (m : Mac 32)
    (h : newWithSaltAndPersonal cfgS out key salt persona = .ok m) (ops : List MacOp) :
    m.run cfgS out ops =
      (Spec.macMessages [] ops).map (Spec.Blake2.hash Spec.Blake2.s out (key.getD []) salt persona) := by
  obtain ⟨s0, hs, hk, h⟩ := newSalt_ok goodS h
  have M := mac_spec goodS hs ops (fun x hx k hk => countS k)
  rcases h with ⟨rfl, rfl⟩ | ⟨k, rfl, hne, rfl⟩
  · exact M.2.1 rfl
  · exact M.1 hne hk

theorem Blake2.newFromSlice_ok {n : Nat} {c : Cfg (8 * n)} {V : Spec.Blake2.Variant (8 * n)} (g : Good n c V) {out : Nat}
    {key : Bytes} {m : Mac (8 * n)} (h : newFromSlice c out key = .ok m) :
    ∃ s0, newWithParams c [] [] key.length out = some s0 ∧ key.length ≤ c.bytes ∧
      m = ⟨s0, bufferOf (padded c.blockSize key), some (padded c.bytes key)⟩ := by
  simp only [newFromSlice] at h
  split at h
  · cases h
  · rename_i hc
    rcases params_eq g.h4 g.M g.hb g.head [] [] key.length out with ⟨h1, h2⟩ | ⟨h1, s, h2, -⟩
    · rw [h2] at h; cases h
    · rw [h2] at h
      simp only [Outcome.ok.injEq] at h
      exact ⟨s, h2, by omega, h.symm⟩

/-- C25. `KeyInit::new_from_slice` (and `new`, which passes a full-length key) with a non-empty key. -/
theorem C25_newFromSlice (out : Nat) (key : Bytes) (hne : key ≠ []) (ops : List MacOp)
    (hl : ∀ x ∈ Spec.macMessages [] ops, x.length + 128 < 2 ^ 64) :
    (∀ m, newFromSlice cfgB out key = .ok m → m.run cfgB out ops =
      (Spec.macMessages [] ops).map (Spec.Blake2.hash Spec.Blake2.b out key [] [])) ∧
    (∀ m, newFromSlice cfgS out key = .ok m → m.run cfgS out ops =
      (Spec.macMessages [] ops).map (Spec.Blake2.hash Spec.Blake2.s out key [] [])) := by
  constructor
  · intro m h
    obtain ⟨s0, hs, hk, rfl⟩ := newFromSlice_ok goodB h
    exact (mac_spec goodB hs ops (fun x hx k hk => countB (by
      have := hl x hx; rw [goodB.hbs] at hk; omega))).1 hne hk
  · intro m h
    obtain ⟨s0, hs, hk, rfl⟩ := newFromSlice_ok goodS h
    exact (mac_spec goodS hs ops (fun x hx k hk => countS k)).1 hne hk

/-! ### C26 -/

/-- Exact behaviour of `new_with_salt_and_personal` (output size within the type-level bound). -/
theorem Blake2.newSalt_cases {n : Nat} {c : Cfg (8 * n)} {V : Spec.Blake2.Variant (8 * n)} (g : Good n c V) {out : Nat}
    (ho : out ≤ 8 * n) (key : Option Bytes) (salt persona : Bytes) :
    (newWithSaltAndPersonal c out key salt persona = .err ↔
      key = some [] ∨ 16 * n < (key.getD []).length ∨ 4 * n < salt.length ∨ 4 * n < persona.length) ∧
    ((∃ m, newWithSaltAndPersonal c out key salt persona = .ok m) ↔
      key ≠ some [] ∧ (key.getD []).length ≤ 8 * n ∧ salt.length ≤ 2 * n ∧ persona.length ≤ 2 * n) ∧
    (newWithSaltAndPersonal c out key salt persona = .panic ↔
      key ≠ some [] ∧ (key.getD []).length ≤ 16 * n ∧ salt.length ≤ 4 * n ∧ persona.length ≤ 4 * n ∧
      ¬ ((key.getD []).length ≤ 8 * n ∧ salt.length ≤ 2 * n ∧ persona.length ≤ 2 * n)) := by
  have ekl : keyLen key = (key.getD []).length := by cases key <;> rfl
  have e4 : 16 * n / 4 = 4 * n := by omega
  simp only [newWithSaltAndPersonal, ekl, g.hbs, e4]
  have hsome : (key.isSome ∧ (key.getD []).length = 0) ↔ key = some [] := by
    cases key with
    | none => simp
    | some k => simp
  simp only [hsome]
  by_cases h1 : key = some [] ∨ (key.getD []).length > 16 * n ∨ salt.length > 4 * n ∨ persona.length > 4 * n
  · rw [if_pos h1]
    refine ⟨by simpa using h1, ?_, ?_⟩
    · constructor
      · rintro ⟨m, hm⟩; cases hm
      · rintro ⟨a, b, c, d⟩
        rcases h1 with h | h | h | h
        · exact absurd h a
        all_goals omega
    · constructor
      · intro hm; cases hm
      · rintro ⟨a, b, c, d, -⟩
        rcases h1 with h | h | h | h
        · exact absurd h a
        all_goals omega
  · rw [if_neg h1]
    have h1' : key ≠ some [] ∧ (key.getD []).length ≤ 16 * n ∧ salt.length ≤ 4 * n ∧ persona.length ≤ 4 * n :=
      ⟨fun h => h1 (.inl h), by omega, by omega, by omega⟩
    rcases params_eq g.h4 g.M g.hb g.head salt persona (key.getD []).length out with ⟨h, h2⟩ | ⟨h, s, h2, -⟩
    · rw [h2]
      refine ⟨?_, ?_, ?_⟩
      · constructor
        · intro hm; cases hm
        · intro hm; exact absurd hm h1
      · constructor
        · rintro ⟨m, hm⟩; cases hm
        · rintro ⟨-, a, b, c⟩; exact absurd ⟨a, ho, b, c⟩ h
      · exact ⟨fun _ => ⟨h1'.1, h1'.2.1, h1'.2.2.1, h1'.2.2.2, fun k => h ⟨k.1, ho, k.2⟩⟩, fun _ => rfl⟩
    · rw [h2]
      refine ⟨?_, ?_, ?_⟩
      · constructor
        · intro hm; cases hm
        · intro hm; exact absurd hm h1
      · exact ⟨fun _ => ⟨h1'.1, h.1, h.2.2.1, h.2.2.2⟩, fun _ => ⟨_, rfl⟩⟩
      · constructor
        · intro hm; cases hm
        · rintro ⟨-, -, -, -, k⟩; exact absurd ⟨h.1, h.2.2⟩ k

/-- C26 (what holds). Exact decision table of `new_with_salt_and_personal`: the accepted inputs are exactly keys of 1..=64
(1..=32) bytes or no key, salt and persona of at most 16 (8) bytes. Missing with respect to the full claim: rejected inputs
must give `Err` and never a panic; see `C26_violated`. -/
theorem C26_decision_partial (out : Nat) (key : Option Bytes) (salt persona : Bytes) :
    (out ≤ 64 → ((∃ m, newWithSaltAndPersonal cfgB out key salt persona = .ok m) ↔
      key ≠ some [] ∧ (key.getD []).length ≤ 64 ∧ salt.length ≤ 16 ∧ persona.length ≤ 16) ∧
      (newWithSaltAndPersonal cfgB out key salt persona = .err ↔
        key = some [] ∨ 128 < (key.getD []).length ∨ 32 < salt.length ∨ 32 < persona.length)) ∧
    (out ≤ 32 → ((∃ m, newWithSaltAndPersonal cfgS out key salt persona = .ok m) ↔
      key ≠ some [] ∧ (key.getD []).length ≤ 32 ∧ salt.length ≤ 8 ∧ persona.length ≤ 8) ∧
      (newWithSaltAndPersonal cfgS out key salt persona = .err ↔
        key = some [] ∨ 64 < (key.getD []).length ∨ 16 < salt.length ∨ 16 < persona.length)) := by
  refine ⟨fun ho => ?_, fun ho => ?_⟩
  · obtain ⟨h1, h2, -⟩ := newSalt_cases goodB ho key salt persona
    exact ⟨h2, h1⟩
  · obtain ⟨h1, h2, -⟩ := newSalt_cases goodS ho key salt persona
    exact ⟨h2, h1⟩

/-- The claim as documented at /repo/blake2/src/macros.rs:296-304 restricted to "no panic". -/
def C26_claim : Prop := ∀ (key : Option Bytes) (salt persona : Bytes),
  newWithSaltAndPersonal cfgB 64 key salt persona ≠ .panic ∧ newWithSaltAndPersonal cfgS 32 key salt persona ≠ .panic

/-- C26 is violated: every key of 65..=128 bytes (Blake2b) passes the documented check and then panics; so do a salt or a
persona of 17..=32 bytes. -/
theorem C26_violated : ¬ C26_claim ∧
    (∀ k : Bytes, 64 < k.length → k.length ≤ 128 → newWithSaltAndPersonal cfgB 64 (some k) [] [] = .panic) ∧
    (∀ x : Bytes, 16 < x.length → x.length ≤ 32 → newWithSaltAndPersonal cfgB 64 none x [] = .panic ∧
      newWithSaltAndPersonal cfgB 64 none [] x = .panic) ∧
    (∀ k : Bytes, 32 < k.length → k.length ≤ 64 → newWithSaltAndPersonal cfgS 32 (some k) [] [] = .panic) ∧
    (∀ x : Bytes, 8 < x.length → x.length ≤ 16 → newWithSaltAndPersonal cfgS 32 none x [] = .panic ∧
      newWithSaltAndPersonal cfgS 32 none [] x = .panic) := by
  have B := fun k s p => (newSalt_cases goodB (out := 64) (by decide) k s p).2.2
  have S := fun k s p => (newSalt_cases goodS (out := 32) (by decide) k s p).2.2
  refine ⟨fun h => ?_, ?_, ?_, ?_, ?_⟩
  · exact (h (some (List.replicate 65 0)) [] []).1 ((B _ _ _).2 (by decide))
  · intro k h1 h2
    refine (B _ _ _).2 ⟨?_, by simpa using h2, by simp, by simp, by simp; omega⟩
    intro h; cases h; simp at h1
  · intro x h1 h2
    exact ⟨(B _ _ _).2 ⟨by simp, by simp, by omega, by simp, by simp; omega⟩,
      (B _ _ _).2 ⟨by simp, by simp, by simp, by omega, by simp; omega⟩⟩
  · intro k h1 h2
    refine (S _ _ _).2 ⟨?_, by simpa using h2, by simp, by simp, by simp; omega⟩
    intro h; cases h; simp at h1
  · intro x h1 h2
    exact ⟨(S _ _ _).2 ⟨by simp, by simp, by omega, by simp, by simp; omega⟩,
      (S _ _ _).2 ⟨by simp, by simp, by simp, by omega, by simp; omega⟩⟩

/-- C26 is also violated by `KeyInit::new_from_slice`, which accepts an empty key: the resulting MAC of `x` is the *unkeyed*
BLAKE2 hash of one zero block followed by `x`, so anyone can compute it without a key. -/
theorem C26_emptyKey_violated (out : Nat) (ho : out ≤ 64) (ops : List MacOp)
    (hl : ∀ x ∈ Spec.macMessages [] ops, x.length + 128 < 2 ^ 64) :
    ∃ m, newFromSlice cfgB out [] = .ok m ∧ m.run cfgB out ops =
      (Spec.macMessages [] ops).map fun x =>
        Spec.Blake2.hash Spec.Blake2.b out [] [] [] (List.replicate 128 0 ++ x) := by
  rcases params_eq goodB.h4 goodB.M goodB.hb goodB.head [] [] 0 out with ⟨h1, -⟩ | ⟨-, s, h2, -⟩
  · exact absurd ⟨Nat.zero_le _, ho, Nat.zero_le _, Nat.zero_le _⟩ h1
  · refine ⟨⟨s, bufferOf (padded 128 []), some (padded 64 [])⟩, ?_, ?_⟩
    · simp only [newFromSlice]
      rw [if_neg (by simp), show ([] : Bytes).length = 0 from rfl, h2]
      rfl
    · have := (mac_spec goodB (key := []) h2 ops (fun x hx k hk => countB (by
        have := hl x hx; rw [goodB.hbs] at hk; omega))).2.2 (Nat.zero_le _)
      exact this

/-- Concrete cases: a keyed tag after a reset equals the first one; a 65-byte key panics, a 129-byte key is an error. -/
example : (match newWithSaltAndPersonal cfgS 32 (some [1, 2, 3]) [4] [5] with
    | .ok m => m.run cfgS 32 [.update [9], .finalizeReset, .update [9], .finalizeClone]
    | _ => []) =
    [Spec.Blake2.hash Spec.Blake2.s 32 [1, 2, 3] [4] [5] [9], Spec.Blake2.hash Spec.Blake2.s 32 [1, 2, 3] [4] [5] [9]] := by
  decide +kernel
example : newWithSaltAndPersonal cfgB 64 (some (List.replicate 65 0)) [] [] = .panic ∧
    newWithSaltAndPersonal cfgB 64 (some (List.replicate 129 0)) [] [] = .err := by decide +kernel

end Hashes
