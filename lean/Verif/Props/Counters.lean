import Verif.Proof.Counters
import Verif.Props.Catalogue
/- C29: range of the length counters, with overflow checks on. -/
namespace Hashes
open Count

/-- Bookkeeping that panics exactly from `limit` message bytes on and below it yields `value` of the message length. -/
inductive Counted : {w : Nat} → Book w → (limit : Nat) → (value : Nat → Nat) → Prop
  | sha256 : Counted sha256 (2 ^ 61) (8 * ·)
  | sha512 : Counted sha512 (2 ^ 125) (8 * ·)
  | sha1 : Counted sha1 (2 ^ 61) (8 * ·)
  | sm3 : Counted sm3 (2 ^ 61) (8 * ·)
  | ripemd : Counted ripemd (2 ^ 61) (8 * ·)
  | tiger : Counted tiger (2 ^ 61) (8 * ·)
  | sha1Plain : Counted sha1Plain (2 ^ 61) (8 * ·)
  | sha1Detect : Counted sha1Detect (2 ^ 64) (8 * · % 2 ^ 64)
  | fsb (P : Fsb.Params) (h : P ∈ Fsb.all) : Counted (fsb P.bs) (2 ^ 61) (8 * ·)
  /-- the padded message (one marker byte, eight length bytes) must have fewer than `2^64` blocks -/
  | groestl (g : Groestl.Cfg) (h : g = Groestl.short ∨ g = Groestl.long) :
      Counted (groestl (8 * g.cols)) ((2 ^ 64 - 1) * (8 * g.cols) - 8) fun L => (L + 9 + (8 * g.cols - 1)) / (8 * g.cols)
  | kupyna (g : Kupyna.Cfg) (h : g = Kupyna.short ∨ g = Kupyna.long) :
      Counted (kupyna (8 * g.cols)) (2 ^ 64 * (8 * g.cols)) (8 * ·)
  | blake2b : Counted (blake2 128) (2 ^ 64) id
  | blake2s : Counted (blake2 64) (2 ^ 64) id
  | skein (n : Nat) (h : n = 4 ∨ n = 8 ∨ n = 16) : Counted (skein (8 * n)) (2 ^ 64) id

/-- C29. Below the limit no counter operation overflows and the length value is right, at or above it some operation
overflows: for every message and every way of feeding it. -/
theorem C29_exact {w limit : Nat} {k : Book w} {value : Nat → Nat} (h : Counted k limit value) (l : List Bytes) :
    k.core.finish (k.core.updates k.core.new l) =
      if l.flatten.length < limit then some (value l.flatten.length) else none := by
  have len64 : ∀ (bs : Nat) (_ : 0 < bs) (L : Nat),
      (if L / bs < 2 ^ 64 then bitLen 64 bs (L / bs) (L % bs) else none) =
        if L < 2 ^ 61 then some (8 * L) else none := by
    intro bs h L
    rw [bitLen_checked, Nat.div_add_mod]
    have := Nat.div_le_self L bs
    by_cases hl : L < 2 ^ 61
    · rw [if_pos (by omega), if_pos (by omega), if_pos hl]
    · rw [if_neg hl, if_neg (by omega : ¬ 8 * L < 2 ^ 64), ite_self]
  cases h with
  | sha256 => exact (finish_bump (by decide) l).trans (len64 64 (by decide) _)
  | sha1 => exact (finish_bump (by decide) l).trans (len64 64 (by decide) _)
  | sm3 => exact (finish_bump (by decide) l).trans (len64 64 (by decide) _)
  | ripemd => exact (finish_bump (by decide) l).trans (len64 64 (by decide) _)
  | tiger => exact (finish_bump (by decide) l).trans (len64 64 (by decide) _)
  | sha1Plain => exact (finish_bump (by decide) l).trans (len64 64 (by decide) _)
  | sha512 =>
    refine (finish_bump (by decide) l).trans ?_
    rw [bitLen_checked, Nat.div_add_mod]
    generalize l.flatten.length = L
    by_cases hl : L < 2 ^ 125
    · rw [if_pos (by omega), if_pos (by omega), if_pos hl]
    · rw [if_neg hl, if_neg (by omega : ¬ 8 * L < 2 ^ 128), ite_self]
  | sha1Detect =>
    refine (finish_bump (by decide) l).trans ?_
    generalize l.flatten.length = L
    simp only [mul, add]
    have := Nat.div_add_mod L 64
    by_cases hl : L < 2 ^ 64
    · rw [if_pos (by omega), if_pos (by omega), Option.bind_some, if_pos (by omega), if_pos hl, Option.map_some, this, Nat.mul_comm]
    · rw [if_neg hl]
      by_cases h1 : L / 64 < 2 ^ 64
      · rw [if_pos h1]
        by_cases h2 : 64 * (L / 64) < 2 ^ 64
        · rw [if_pos h2, Option.bind_some, if_neg (by omega)]; rfl
        · rw [if_neg h2]; rfl
      · rw [if_neg h1]
  | fsb P hP =>
    have hp : ∀ P ∈ Fsb.all, 0 < P.bs := by decide
    refine (finish_bump (hp P hP) l).trans ?_
    rw [bitLen_checked', ← bitLen_checked]
    exact len64 _ (hp P hP) _
  | groestl g hg =>
    have key : ∀ (bs : Nat) (_ : bs = 64 ∨ bs = 128) (L : Nat),
        (if L / bs < 2 ^ 64 then (if bs - L % bs ≤ 8 then add 64 (L / bs) 2 else add 64 (L / bs) 1) else none) =
          if L < (2 ^ 64 - 1) * bs - 8 then some ((L + 9 + (bs - 1)) / bs) else none := by
      rintro bs (rfl | rfl) L
      · simp only [add]
        by_cases hl : L < (2 ^ 64 - 1) * 64 - 8
        · rw [if_pos hl, if_pos (by omega)]
          split
          · rw [if_pos (by omega), show L / 64 + 2 = (L + 9 + (64 - 1)) / 64 by omega]
          · rw [if_pos (by omega), show L / 64 + 1 = (L + 9 + (64 - 1)) / 64 by omega]
        · rw [if_neg hl]
          split
          · split
            · rw [if_neg (by omega)]
            · rw [if_neg (by omega)]
          · rfl
      · simp only [add]
        by_cases hl : L < (2 ^ 64 - 1) * 128 - 8
        · rw [if_pos hl, if_pos (by omega)]
          split
          · rw [if_pos (by omega), show L / 128 + 2 = (L + 9 + (128 - 1)) / 128 by omega]
          · rw [if_pos (by omega), show L / 128 + 1 = (L + 9 + (128 - 1)) / 128 by omega]
        · rw [if_neg hl]
          split
          · split
            · rw [if_neg (by omega)]
            · rw [if_neg (by omega)]
          · rfl
    rcases hg with rfl | rfl
    · exact (finish_bump (by decide) l).trans (key 64 (.inl rfl) _)
    · exact (finish_bump (by decide) l).trans (key 128 (.inr rfl) _)
  | kupyna g hg =>
    have key : ∀ (bs : Nat) (_ : bs = 64 ∨ bs = 128) (L : Nat),
        (if L / bs < 2 ^ 64 then ((mul 128 (L / bs) bs).bind fun x => (add 128 x (L % bs)).bind fun y => mul 128 8 y) else none) =
          if L < 2 ^ 64 * bs then some (8 * L) else none := by
      rintro bs (rfl | rfl) L <;> rw [bitLen_checked', Nat.div_add_mod]
      · by_cases hl : L < 2 ^ 64 * 64
        · rw [if_pos hl, if_pos (by omega), if_pos (by omega)]
        · rw [if_neg hl, if_neg (by omega)]
      · by_cases hl : L < 2 ^ 64 * 128
        · rw [if_pos hl, if_pos (by omega), if_pos (by omega)]
        · rw [if_neg hl, if_neg (by omega)]
    rcases hg with rfl | rfl
    · exact (finish_bump (by decide) l).trans (key 64 (.inl rfl) _)
    · exact (finish_bump (by decide) l).trans (key 128 (.inr rfl) _)
  | blake2b => exact finish_bytes (by decide) l
  | blake2s => exact finish_bytes (by decide) l
  | skein n hn => exact finish_bytes (by omega) l

/-- C29. MD4, MD5 and JH use wrapping arithmetic throughout: they never panic and encode the bit length modulo `2^64`. -/
theorem C29_wrapping (k : Book 64) (hk : k = md4 ∨ k = md5 ∨ k = jh) (l : List Bytes) :
    k.core.finish (k.core.updates k.core.new l) = some (8 * l.flatten.length % 2 ^ 64) := by
  have e (L : Nat) : ((L / 64 % 2 ^ 64 * 64 % 2 ^ 64 + L % 64) % 2 ^ 64 * 8) % 2 ^ 64 = 8 * L % 2 ^ 64 := by omega
  rcases hk with rfl | rfl | rfl
  · refine (finish_wbump (by decide) l).trans ?_
    simp only [wmul, wadd, Option.bind_some, Option.some.injEq]
    rw [Nat.mul_comm 64, Nat.mul_comm 8 (_ % _)]
    exact e _
  · refine (finish_wbump (by decide) l).trans ?_
    simp only [wmul, wadd, Option.bind_some, Option.some.injEq]
    exact e _
  · refine (finish_wbump (by decide) l).trans ?_
    simp only [wmul, wadd, Option.bind_some, Option.some.injEq]
    exact e _

/-- C29. BelT-hash: no overflow below `2^128` bits. -/
theorem C29_belt (l : List Bytes) (h : 8 * l.flatten.length < 2 ^ 128) :
    belt.core.finish (belt.core.updates belt.core.new l) = some (8 * l.flatten.length) := by
  refine (finish_wbump (by decide) l).trans ?_
  generalize l.flatten.length = L at *
  simp only [mul, add]
  rw [Nat.mod_eq_of_lt (by omega : L / 32 < 2 ^ 128), if_pos (by omega), Option.bind_some, if_pos (by omega), Option.bind_some,
    Nat.div_add_mod, if_pos h]

/-- C29 (partial). Whirlpool: no overflow, and the right length modulo `2^256`, provided every single `update` gets fewer than
`2^61` bytes. Without the proviso: `C29_whirlpool_violated`. -/
theorem C29_whirlpool_partial (l : List Bytes) (h : ∀ x ∈ l, x.length < 2 ^ 61) :
    whirlpool.core.finish (whirlpool.core.updates whirlpool.core.new l) = some (8 * l.flatten.length % 2 ^ 256) := by
  let k : Book 256 := ⟨.eager, 64, fun n c => some (n + BitVec.ofNat 256 (512 * c)), whirlpool.fin⟩
  have H : k.Lawful := ⟨by decide, fun n => by simp [k], fun n a b => by
    simp only [k, Option.bind_some, Nat.mul_add, BitVec.ofNat_add, BitVec.add_assoc]⟩
  have r := updates_rel H.core (d := whirlpool.core) (fun s t => s = t) rfl rfl rfl l (by
    intro x hx s t blks _ hl e
    subst e
    have hx := h x hx
    change blks.length ≤ max 1 (x.length / 64) at hl
    cases s with
    | none => rfl
    | some n =>
      simp only [Book.core, Option.bind_some, whirlpool, mul, k]
      rw [if_pos (by omega), Option.map_some])
  have e : whirlpool.core.finish (whirlpool.core.updates whirlpool.core.new l) = k.core.finish (k.core.updates k.core.new l) := by
    simp only [Core.finish, ← r.1, ← r.2]; rfl
  rw [e, H.finish]
  generalize l.flatten.length = L
  simp only [k, nFull, Option.bind_some, whirlpool, mul]
  have := Nat.div_add_mod L 64
  rw [if_pos (by omega), Option.map_some]
  congr 1
  rw [show (0 : BitVec 256) = 0#256 from rfl, BitVec.zero_add, BitVec.toNat_ofNat, Nat.mod_add_mod]
  congr 1
  omega

/-- One `update` with `2^61` bytes overflows. -/
theorem whirlpool_one_chunk (m : Bytes) (hl : m.length = 2 ^ 61) :
    whirlpool.core.finish (whirlpool.core.updates whirlpool.core.new [m]) = none := by
  have hlen : (blocks 64 (BlockBuffer.splitCount .eager 64 m.length) m).length = 2 ^ 55 := by
    rw [length_blocks, hl]; decide
  have he : (blocks 64 (BlockBuffer.splitCount .eager 64 m.length) m).isEmpty = false := by
    cases h : blocks 64 (BlockBuffer.splitCount .eager 64 m.length) m with
    | nil => rw [h] at hlen; exact absurd hlen (by decide)
    | cons => rfl
  have hf : BlockBuffer.fits .eager m.length (64 - 0) = false := by rw [hl]; decide
  have : (whirlpool.core.updates whirlpool.core.new [m]).core = none := by
    change (BlockBuffer.digestBlocks .eager 64 (BlockBuffer.empty 64) m whirlpool.core.updateBlocks (some 0)).2 = none
    unfold BlockBuffer.digestBlocks
    simp only [show (BlockBuffer.empty 64).pos = 0 from rfl, hf, ne_eq, not_true_eq_false, if_false, Bool.false_eq_true, he]
    simp only [Book.core, Option.bind_some, whirlpool, mul, hlen]
    rw [if_neg (by decide)]; rfl
  simp only [Core.finish, Book.core] at this ⊢
  rw [this]; rfl

/-- C29 fails for Whirlpool: the same `2^61` bytes are hashed without overflow when given in two pieces, but panic in a checked
build when given in one. -/
theorem C29_whirlpool_violated : ∃ l l' : List Bytes, l.flatten = l'.flatten ∧
    whirlpool.core.finish (whirlpool.core.updates whirlpool.core.new l) = none ∧
    whirlpool.core.finish (whirlpool.core.updates whirlpool.core.new l') = some (8 * l.flatten.length) := by
  obtain ⟨a, ha⟩ : ∃ a : Bytes, a.length = 2 ^ 60 := ⟨List.replicate _ 0, List.length_replicate⟩
  refine ⟨[a ++ a], [a, a], by simp, whirlpool_one_chunk _ (by rw [List.length_append, ha]), ?_⟩
  rw [C29_whirlpool_partial]
  · simp only [List.flatten_cons, List.flatten_nil, List.append_nil, List.length_append, ha]
  · intro x hx
    have : x = a := by simpa using hx
    rw [this, ha]; decide

/-- `len` is the length value the finalization of core `c` (in the release-profile model) computes from its state and buffer
position; `k` is its checked bookkeeping. -/
inductive Tracks : {σ ω : Type} → {w : Nat} → Core σ ω → Book w → (len : σ → Nat → Nat) → Prop
  | sha256 {N : Nat} {c} (h : Sha256.varCore.ct N = some c) :
      Tracks c Count.sha256 fun s pos => (8 * (BitVec.ofNat 64 pos + 64 * s.blockLen)).toNat
  | sha512 {N : Nat} {c} (h : Sha512.varCore.ct N = some c) :
      Tracks c Count.sha512 fun s pos => (8 * (BitVec.ofNat 128 pos + 128 * s.blockLen)).toNat
  | sha1 : Tracks Sha1.sha1 Count.sha1 fun s pos => (8 * (BitVec.ofNat 64 pos + 64 * s.blockLen)).toNat
  | sm3 : Tracks Sm3.sm3 Count.sm3 fun s pos => (8 * (BitVec.ofNat 64 pos + 64 * s.blockLen)).toNat
  | ripemd {α : Type} (M : Ripemd.Mod α) :
      Tracks (Ripemd.core M) Count.ripemd fun s pos => (8 * (BitVec.ofNat 64 pos + 64 * s.blockLen)).toNat
  | tiger (T : List (List W64)) (ver2 : Bool) :
      Tracks (Tiger.core T ver2) Count.tiger fun s pos => (8 * (BitVec.ofNat 64 pos + 64 * s.blockLen)).toNat
  | md4 : Tracks Md4.md4 Count.md4 fun s pos => (8 * (64 * s.blockLen + BitVec.ofNat 64 pos)).toNat
  | md5 : Tracks Md5.md5 Count.md5 fun s pos => ((s.blockLen * 64 + BitVec.ofNat 64 pos) * 8).toNat
  | jh {N : Nat} {c} (h : Jh.core N = some c) :
      Tracks c Count.jh fun s pos => ((s.blockLen * 64 + BitVec.ofNat 64 pos) * 8).toNat
  | fsb (P : Fsb.Params) (hP : P ∈ Fsb.all) (PI : Bytes) (h : PI.length = 272384) :
      Tracks (Fsb.core P PI) (Count.fsb P.bs) fun s pos => (8 * (BitVec.ofNat 64 pos + BitVec.ofNat 64 P.bs * s.blocksLen)).toNat
  | groestl {g : Groestl.Cfg} (hg : g = Groestl.short ∨ g = Groestl.long) {N : Nat} {c} (h : Groestl.core g N = some c) :
      Tracks c (Count.groestl (8 * g.cols)) fun s pos =>
        (if 8 * g.cols - pos ≤ 8 then s.blocksLen + 2 else s.blocksLen + 1).toNat
  | kupyna {g : Kupyna.Cfg} (hg : g = Kupyna.short ∨ g = Kupyna.long) {N : Nat} {c} (h : Kupyna.core g N = some c) :
      Tracks c (Count.kupyna (8 * g.cols)) fun s pos =>
        (8 * (BitVec.ofNat 128 s.blocksLen.toNat * BitVec.ofNat 128 (8 * g.cols) + BitVec.ofNat 128 pos)).toNat
  | blake2b {N : Nat} {c} (h : Blake2.core Blake2.cfgB N = some c) :
      Tracks c (Count.blake2 128) fun s pos => (s.t + BitVec.ofNat 64 pos).toNat
  | blake2s {N : Nat} {c} (h : Blake2.core Blake2.cfgS N = some c) :
      Tracks c (Count.blake2 64) fun s pos => (s.t + BitVec.ofNat 64 pos).toNat
  | skein {n : Nat} (hn : n = 4 ∨ n = 8 ∨ n = 16) (E : Skein.Cipher n) (N : Nat) :
      Tracks (Skein.core E N) (Count.skein (8 * n)) fun s pos => (s.t0 + BitVec.ofNat 64 pos).toNat
  | belt (E : Belt.Cipher) : Tracks (Belt.belt E) Count.belt fun s pos => (8 * (32 * s.r + BitVec.ofNat 128 pos)).toNat
  | sha1Plain (x : Sha1Checked.Builder) :
      Tracks (Sha1Checked.sha1Checked x) Count.sha1Plain fun s pos => (8 * (BitVec.ofNat 64 pos + 64 * s.blockLen)).toNat
  | sha1Detect (x : Sha1Checked.Builder) :
      Tracks (Sha1Checked.sha1Checked x) Count.sha1Detect fun s pos =>
        ((64 * s.blockLen + BitVec.ofNat 64 pos) <<< 3).toNat
  | whirlpool : Tracks Whirlpool.whirlpool Count.whirlpool fun s pos =>
      ((s.bitLen.x0 ++ s.bitLen.x1 ++ s.bitLen.x2 ++ s.bitLen.x3 : BitVec 256) + BitVec.ofNat 256 (8 * pos)).toNat

/-- The counter of core `c` is `proj`, and it is stepped as by `k`. -/
structure Follows {σ ω : Type} {w : Nat} (c : Core σ ω) (k : Book w) (len : σ → Nat → Nat) (proj : σ → BitVec w)
    (inv : σ → Prop) : Prop where
  lawful : c.Lawful inv
  kind : k.kind = c.kind
  bs : k.bs = c.bs
  init : proj c.init = 0
  step : ∀ s blks n, (∀ b ∈ blks, b.length = c.bs) → k.upd (proj s) blks.length = some n → proj (c.updateBlocks s blks) = n
  fin : ∀ s pos v, k.fin (proj s).toNat pos = some v → len s pos = v

theorem Follows.agree {σ ω : Type} {w : Nat} {c : Core σ ω} {k : Book w} {len : σ → Nat → Nat} {proj : σ → BitVec w}
    {inv : σ → Prop} (F : Follows c k len proj inv) (l : List Bytes) (v : Nat)
    (h : k.core.finish (k.core.updates k.core.new l) = some v) :
    len (c.updates c.new l).core (c.updates c.new l).buf.pos = v := by
  have r := updates_rel F.lawful (d := k.core) (fun s t => ∀ n, t = some n → proj s = n) F.kind F.bs
    (fun n e => by rw [F.init]; exact Option.some.inj e) l (by
      intro x _ s t blks hl _ hst n e
      cases t with
      | none => exact absurd e (by simp [Book.core])
      | some m => exact F.step s blks n hl (by rw [hst m rfl]; exact e))
  simp only [Core.finish] at h
  rw [← r.1] at h
  cases e : (k.core.updates k.core.new l).core with
  | none => rw [e] at h; exact absurd h (by simp [Book.core])
  | some n =>
    rw [e] at h
    refine F.fin _ _ _ ?_
    rw [r.2 n e]; exact h

theorem step_bump {w : Nat} {x n : BitVec w} {k : Nat} (h : bump w x k = some n) : x + BitVec.ofNat w k = n := by
  rw [bump_eq] at h
  split at h
  · exact Option.some.inj h
  · cases h

theorem fin_bitLen64 {x : W64} {pos v : Nat} (h : bitLen 64 64 x.toNat pos = some v) :
    (8 * (BitVec.ofNat 64 pos + 64 * x)).toNat = v := by
  rw [bitLen_checked] at h
  split at h
  · rw [← Option.some.inj h]
    simp only [BitVec.toNat_mul, BitVec.toNat_add, BitVec.toNat_ofNat, show (8 : W64).toNat = 8 from rfl,
      show (64 : W64).toNat = 64 from rfl]
    omega
  · cases h

theorem fin_add {x : W64} {pos v : Nat} (h : add 64 x.toNat pos = some v) : (x + BitVec.ofNat 64 pos).toNat = v := by
  unfold add at h
  split at h
  · rw [← Option.some.inj h]
    simp only [BitVec.toNat_add, BitVec.toNat_ofNat]
    omega
  · cases h

/-- A state with a byte counter that grows by the length of every block. -/
theorem step_perBlock {σ : Type} {bs : Nat} (t : σ → W64) (f : σ → Bytes → σ)
    (hf : ∀ s b, t (f s b) = t s + BitVec.ofNat 64 b.length) (s : σ) (blks : List Bytes) (n : W64)
    (hl : ∀ b ∈ blks, b.length = bs) (h : perBlock bs (t s) blks.length = some n) : t (blks.foldl f s) = n := by
  induction blks generalizing s with
  | nil => exact Option.some.inj h
  | cons b blks ih =>
    rw [List.foldl_cons]
    refine ih (f s b) (fun x hx => hl x (List.mem_cons_of_mem _ hx)) ?_
    rw [hf, hl b List.mem_cons_self]
    simp only [List.length_cons, perBlock] at h
    cases e : bump 64 (t s) bs with
    | none => rw [e] at h; cases h
    | some m => rw [e] at h; rw [step_bump e]; exact h

theorem foldl_proj {σ α τ : Type} (p : σ → τ) (f : σ → α → σ) (hf : ∀ s a, p (f s a) = p s) (l : List α) (s : σ) :
    p (l.foldl f s) = p s := by
  induction l generalizing s with
  | nil => rfl
  | cons a l ih => rw [List.foldl_cons, ih, hf]

theorem whirlpool_val (b : V4 W64) : (b.x0 ++ b.x1 ++ b.x2 ++ b.x3 : BitVec 256).toNat = Whirlpool.val b := by
  have h1 := b.x1.isLt; have h2 := b.x2.isLt; have h3 := b.x3.isLt
  rw [BitVec.toNat_append, BitVec.toNat_append, BitVec.toNat_append, ← Nat.shiftLeft_add_eq_or_of_lt h3,
    ← Nat.shiftLeft_add_eq_or_of_lt h2, ← Nat.shiftLeft_add_eq_or_of_lt h1]
  simp only [Nat.shiftLeft_eq]
  unfold Whirlpool.val
  omega

theorem blake2_new_t {w : Nat} {c : Blake2.Cfg w} {N : Nat} {s : Blake2.State w} (h : Blake2.new c N = some s) : s.t = 0 := by
  unfold Blake2.new at h
  split at h
  · cases h
  · unfold Blake2.newWithParams at h
    simp only at h
    split at h
    · cases h
    · split at h
      · cases h
      · split at h
        · cases h
        · cases h; rfl

theorem Tracks.follows {σ ω : Type} {w : Nat} {c : Core σ ω} {k : Book w} {len : σ → Nat → Nat} (h : Tracks c k len) :
    ∃ proj inv, Follows c k len proj inv := by
  cases h with
  | sha256 h =>
    obtain ⟨_, s0, hs, rfl⟩ := VarCore.ct_inv h
    refine ⟨fun s => s.blockLen, _, Sha256.lawful.ct _ _, rfl, rfl, ?_, fun s b n _ h => step_bump h, fun s pos v h => fin_bitLen64 h⟩
    have : Sha256.new _ = some s0 := hs
    unfold Sha256.new at this
    split at this <;> cases this <;> rfl
  | sha512 h =>
    obtain ⟨_, s0, hs, rfl⟩ := VarCore.ct_inv h
    refine ⟨fun s => s.blockLen, _, Sha512.lawful.ct _ _, rfl, rfl, ?_, fun s b n _ h => step_bump h, fun s pos v h => ?_⟩
    · have : Sha512.new _ = some s0 := hs
      unfold Sha512.new at this
      split at this <;> cases this <;> rfl
    · have h : bitLen 128 128 _ _ = _ := h
      rw [bitLen_checked] at h
      split at h
      · rw [← Option.some.inj h]
        simp only [BitVec.toNat_mul, BitVec.toNat_add, BitVec.toNat_ofNat, show (8 : W128).toNat = 8 from rfl,
          show (128 : W128).toNat = 128 from rfl]
        omega
      · cases h
  | sha1 => exact ⟨fun s => s.blockLen, _, Sha1.lawful, rfl, rfl, rfl, fun s b n _ h => step_bump h, fun s pos v h => fin_bitLen64 h⟩
  | sm3 => exact ⟨fun s => s.blockLen, _, Sm3.lawful, rfl, rfl, rfl, fun s b n _ h => step_bump h, fun s pos v h => fin_bitLen64 h⟩
  | ripemd M =>
    exact ⟨fun s => s.blockLen, _, Ripemd.lawful, rfl, rfl, rfl, fun s b n _ h => step_bump h, fun s pos v h => fin_bitLen64 h⟩
  | tiger T ver2 =>
    exact ⟨fun s => s.blockLen, _, Tiger.lawful _ _, rfl, rfl, rfl, fun s b n _ h => step_bump h, fun s pos v h => fin_bitLen64 h⟩
  | md4 =>
    refine ⟨fun s => s.blockLen, _, Md4.lawful, rfl, rfl, rfl, fun s b n _ h => Option.some.inj h, fun s pos v h => ?_⟩
    simp only [Count.md4, wmul, wadd, Option.bind_some, Option.some.injEq] at h
    rw [← h]
    simp only [BitVec.toNat_mul, BitVec.toNat_add, BitVec.toNat_ofNat, show (8 : W64).toNat = 8 from rfl,
      show (64 : W64).toNat = 64 from rfl]
    omega
  | md5 =>
    refine ⟨fun s => s.blockLen, _, Md5.lawful, rfl, rfl, rfl, fun s b n _ h => Option.some.inj h, fun s pos v h => ?_⟩
    simp only [Count.md5, wmul, wadd, Option.bind_some, Option.some.injEq] at h
    rw [← h]
    simp only [BitVec.toNat_mul, BitVec.toNat_add, BitVec.toNat_ofNat, show (8 : W64).toNat = 8 from rfl,
      show (64 : W64).toNat = 64 from rfl]
    omega
  | jh h =>
    obtain ⟨_, s0, hs, rfl⟩ := VarCore.ct_inv h
    refine ⟨fun s => s.blockLen, _, Jh.lawful.ct _ _, rfl, rfl, ?_, fun s b n _ h => Option.some.inj h, fun s pos v h => ?_⟩
    · have : Jh.new _ = some s0 := hs
      unfold Jh.new at this
      split at this <;> cases this <;> rfl
    · simp only [Count.jh, wmul, wadd, Option.bind_some, Option.some.injEq] at h
      rw [← h]
      simp only [BitVec.toNat_mul, BitVec.toNat_add, BitVec.toNat_ofNat, show (8 : W64).toNat = 8 from rfl,
        show (64 : W64).toNat = 64 from rfl]
      omega
  | fsb P hP PI hl =>
    have hs : ∀ P ∈ Fsb.all, P.n / P.r * (P.p / 8 + 1) ≤ 272384 := by decide
    have hbs : ∀ P ∈ Fsb.all, P.bs < 256 := by decide
    refine ⟨fun s => s.blocksLen, _, Fsb.lawful (Fsb.good hP) (by rw [hl]; exact hs P hP), rfl, rfl, rfl,
      fun s b n _ h => step_bump h, fun s pos v h => ?_⟩
    simp only [Count.fsb] at h
    rw [bitLen_checked'] at h
    split at h
    · rw [← Option.some.inj h]
      simp only [BitVec.toNat_mul, BitVec.toNat_add, BitVec.toNat_ofNat, show (8 : W64).toNat = 8 from rfl]
      rw [Nat.mod_eq_of_lt (a := P.bs) (by have := hbs P hP; omega)]
      generalize P.bs * s.blocksLen.toNat = x at *
      omega
    · cases h
  | @groestl g hg _ _ h =>
    obtain ⟨_, s0, hs, rfl⟩ := VarCore.ct_inv h
    have L : (Groestl.varCore g).Lawful := by
      rcases hg with rfl | rfl
      · exact Groestl.lawful (by decide)
      · exact Groestl.lawful (by decide)
    refine ⟨fun s => s.blocksLen, _, L.ct _ _, rfl, rfl, ?_, fun s b n _ h => step_bump h, fun s pos v h => ?_⟩
    · have : Groestl.new _ _ = some s0 := hs
      unfold Groestl.new at this
      split at this <;> cases this
      rfl
    · simp only [Count.groestl, add] at h
      split at h <;> rename_i h1 <;> split at h <;> rename_i h2
      · rw [← Option.some.inj h]
        simp only [if_pos h1, BitVec.toNat_add, show (2 : W64).toNat = 2 from rfl]
        omega
      · cases h
      · rw [← Option.some.inj h]
        simp only [if_neg h1, BitVec.toNat_add, show (1 : W64).toNat = 1 from rfl]
        omega
      · cases h
  | @kupyna g hg _ _ h =>
    obtain ⟨_, s0, hs, rfl⟩ := VarCore.ct_inv h
    have L : (Kupyna.varCore g).Lawful := by
      rcases hg with rfl | rfl
      · exact Kupyna.lawful (by decide)
      · exact Kupyna.lawful (by decide)
    refine ⟨fun s => s.blocksLen, _, L.ct _ _, rfl, rfl, ?_, fun s b n _ h => step_bump h, fun s pos v h => ?_⟩
    · have : Kupyna.new _ _ = some s0 := hs
      unfold Kupyna.new at this
      split at this <;> cases this
      rfl
    · simp only [Count.kupyna] at h
      rw [bitLen_checked'] at h
      split at h
      · rw [← Option.some.inj h]
        simp only [BitVec.toNat_mul, BitVec.toNat_add, BitVec.toNat_ofNat, show (8 : W128).toNat = 8 from rfl]
        have := s.blocksLen.isLt
        rw [Nat.mod_eq_of_lt (a := s.blocksLen.toNat) (by omega)]
        rcases hg with rfl | rfl
        · simp only [show Kupyna.short.cols = 8 from rfl] at *; omega
        · simp only [show Kupyna.long.cols = 16 from rfl] at *; omega
      · cases h
  | blake2b h =>
    obtain ⟨_, s0, hs, rfl⟩ := VarCore.ct_inv h
    refine ⟨fun s => s.t, _, Blake2.goodB.lawful.ct _ _, rfl, rfl, ?_, ?_, fun s pos v h => fin_add h⟩
    · exact blake2_new_t hs
    · intro s blks n hl h
      exact step_perBlock (fun s : Blake2.State 64 => s.t) _ (fun _ _ => rfl) s blks n hl h
  | blake2s h =>
    obtain ⟨_, s0, hs, rfl⟩ := VarCore.ct_inv h
    refine ⟨fun s => s.t, _, Blake2.goodS.lawful.ct _ _, rfl, rfl, ?_, ?_, fun s pos v h => fin_add h⟩
    · exact blake2_new_t hs
    · intro s blks n hl h
      exact step_perBlock (fun s : Blake2.State 32 => s.t) _ (fun _ _ => rfl) s blks n hl h
  | @skein m hn E N =>
    refine ⟨fun s => s.t0, _, Skein.lawful N (by omega), rfl, rfl, rfl, ?_, fun s pos v h => fin_add h⟩
    intro s blks n hl h
    exact step_perBlock (fun s : Skein.State m => s.t0) _ (fun _ _ => rfl) s blks n hl h
  | belt E =>
    refine ⟨fun s => s.r, _, Belt.lawful E, rfl, rfl, rfl, ?_, ?_⟩
    · intro s blks n _ h
      rw [← Option.some.inj h]
      exact foldl_proj (fun s : Belt.State => s.r) (Belt.compressBlock E) (fun _ _ => rfl) blks _
    · intro s pos v h
      simp only [Count.belt] at h
      rw [bitLen_checked'] at h
      split at h
      · rw [← Option.some.inj h]
        simp only [BitVec.toNat_mul, BitVec.toNat_add, BitVec.toNat_ofNat, show (8 : W128).toNat = 8 from rfl,
          show (32 : W128).toNat = 32 from rfl]
        omega
      · cases h
  | sha1Plain x =>
    refine ⟨fun s => s.blockLen, _, Sha1Checked.lawful x, rfl, rfl, rfl, fun s b n _ h => ?_, fun s pos v h => fin_bitLen64 h⟩
    rw [← step_bump h]
    change (Sha1Checked.updateBlocks s b).blockLen = _
    unfold Sha1Checked.updateBlocks
    cases s.detection <;> rfl
  | sha1Detect x =>
    refine ⟨fun s => s.blockLen, _, Sha1Checked.lawful x, rfl, rfl, rfl, fun s b n _ h => ?_, fun s pos v h => ?_⟩
    · rw [← step_bump h]
      change (Sha1Checked.updateBlocks s b).blockLen = _
      unfold Sha1Checked.updateBlocks
      cases s.detection <;> rfl
    · simp only [Count.sha1Detect, mul, add] at h
      split at h
      · rw [Option.bind_some] at h
        split at h
        · rw [Option.map_some] at h
          rw [← Option.some.inj h]
          simp only [BitVec.toNat_shiftLeft, BitVec.toNat_mul, BitVec.toNat_add, BitVec.toNat_ofNat, Nat.shiftLeft_eq,
            show (64 : W64).toNat = 64 from rfl]
          omega
        · cases h
      · cases h
  | whirlpool =>
    refine ⟨fun s => s.bitLen.x0 ++ s.bitLen.x1 ++ s.bitLen.x2 ++ s.bitLen.x3, _, Whirlpool.lawful, rfl, rfl, by decide, ?_, ?_⟩
    · intro s blks n _ h
      simp only [Count.whirlpool, mul] at h
      split at h
      · rw [Option.map_some] at h
        rw [← Option.some.inj h]
        apply BitVec.eq_of_toNat_eq
        rw [whirlpool_val, BitVec.toNat_add, whirlpool_val, BitVec.toNat_ofNat]
        refine (Whirlpool.val_blocks _ _).trans ?_
        omega
      · cases h
    · intro s pos v h
      simp only [Count.whirlpool, mul] at h
      split at h
      · rw [Option.map_some] at h
        rw [← Option.some.inj h, BitVec.toNat_add, BitVec.toNat_ofNat]
        omega
      · cases h

/-- C29. Where the checked build does not panic, it computes the same length value as the release build, whose digest the other
theorems are about. -/
theorem C29_agree {σ ω : Type} {w : Nat} {c : Core σ ω} {k : Book w} {len : σ → Nat → Nat} (h : Tracks c k len)
    (l : List Bytes) (v : Nat) (hv : k.core.finish (k.core.updates k.core.new l) = some v) :
    len (c.updates c.new l).core (c.updates c.new l).buf.pos = v := by
  obtain ⟨_, _, F⟩ := h.follows
  exact F.agree l v hv

/-! ### Limits of the specifications -/

/-- C29. Where the specification itself limits the length to `2^64 - 1` bits (SHA-1, SHA-224/256, SM3, RIPEMD, Tiger, FSB) or
`2^128 - 1` bits (SHA-384/512, SHA-512/t), the checked build panics only on longer messages. -/
theorem C29_standard (l : List Bytes) :
    (8 * l.flatten.length < 2 ^ 64 → ∀ k : Book 64,
      (k = sha256 ∨ k = sha1 ∨ k = sm3 ∨ k = ripemd ∨ k = tiger ∨ k = sha1Plain ∨ k = sha1Detect ∨ ∃ P ∈ Fsb.all, k = fsb P.bs) →
      k.core.finish (k.core.updates k.core.new l) = some (8 * l.flatten.length)) ∧
    (8 * l.flatten.length < 2 ^ 128 → sha512.core.finish (sha512.core.updates sha512.core.new l) = some (8 * l.flatten.length)) := by
  constructor
  · intro h k hk
    rcases hk with rfl | rfl | rfl | rfl | rfl | rfl | rfl | ⟨P, hP, rfl⟩
    · rw [C29_exact .sha256, if_pos (by omega)]
    · rw [C29_exact .sha1, if_pos (by omega)]
    · rw [C29_exact .sm3, if_pos (by omega)]
    · rw [C29_exact .ripemd, if_pos (by omega)]
    · rw [C29_exact .tiger, if_pos (by omega)]
    · rw [C29_exact .sha1Plain, if_pos (by omega)]
    · rw [C29_exact .sha1Detect, if_pos (by omega), Nat.mod_eq_of_lt h]
    · rw [C29_exact (.fsb P hP), if_pos (by omega)]
  · intro h
    rw [C29_exact .sha512, if_pos (by omega)]

/-- Some message of every length. -/
theorem exists_len (n : Nat) : ∃ l : List Bytes, l.flatten.length = n :=
  ⟨[List.replicate n 0], by simp⟩

/-- C29 fails where the counter is narrower than the specification allows: BLAKE2b (limit `2^128 - 1` bytes), Skein (`2^96 - 1`
bytes), Kupyna (`2^96 - 1` bits) panic, and JH (`2^128 - 1` bits) silently encodes a wrong length, on a message the
specification admits. -/
theorem C29_narrow_violated :
    (∃ l : List Bytes, l.flatten.length < 2 ^ 128 ∧ (blake2 128).core.finish ((blake2 128).core.updates (blake2 128).core.new l) = none) ∧
    (∀ n, n = 4 ∨ n = 8 ∨ n = 16 → ∃ l : List Bytes, l.flatten.length < 2 ^ 96 ∧
      (skein (8 * n)).core.finish ((skein (8 * n)).core.updates (skein (8 * n)).core.new l) = none) ∧
    (∀ g, g = Kupyna.short ∨ g = Kupyna.long → ∃ l : List Bytes, 8 * l.flatten.length < 2 ^ 96 ∧
      (kupyna (8 * g.cols)).core.finish ((kupyna (8 * g.cols)).core.updates (kupyna (8 * g.cols)).core.new l) = none) ∧
    (∃ l : List Bytes, 8 * l.flatten.length < 2 ^ 128 ∧
      ∃ v, jh.core.finish (jh.core.updates jh.core.new l) = some v ∧ v ≠ 8 * l.flatten.length) := by
  refine ⟨?_, fun n hn => ?_, fun g hg => ?_, ?_⟩
  · obtain ⟨l, hl⟩ := exists_len (2 ^ 64)
    exact ⟨l, by rw [hl]; decide, by rw [C29_exact .blake2b, hl, if_neg (by decide)]⟩
  · obtain ⟨l, hl⟩ := exists_len (2 ^ 64)
    exact ⟨l, by rw [hl]; decide, by rw [C29_exact (.skein n hn), hl, if_neg (by decide)]⟩
  · obtain ⟨l, hl⟩ := exists_len (2 ^ 64 * (8 * g.cols))
    refine ⟨l, ?_, by rw [C29_exact (.kupyna g hg), hl, if_neg (Nat.lt_irrefl _)]⟩
    rw [hl]
    rcases hg with rfl | rfl <;> decide
  · obtain ⟨l, hl⟩ := exists_len (2 ^ 61)
    refine ⟨l, by rw [hl]; decide, _, C29_wrapping jh (by simp) l, ?_⟩
    rw [hl]; decide

/-! ### Examples -/

/-- Three bytes in two chunks: 24 bits. -/
example : sha256.core.finish (sha256.core.updates sha256.core.new [[1], [2, 3]]) = some 24 := by
  rw [C29_exact .sha256]; decide
/-- A message of `2^61` bytes panics, one of `2^61 - 1` bytes does not. -/
example : (∃ l, sha256.core.finish (sha256.core.updates sha256.core.new l) = none) ∧
    ∃ l, sha256.core.finish (sha256.core.updates sha256.core.new l) = some (2 ^ 64 - 8) := by
  obtain ⟨l, hl⟩ := exists_len (2 ^ 61)
  obtain ⟨l', hl'⟩ := exists_len (2 ^ 61 - 1)
  exact ⟨⟨l, by rw [C29_exact .sha256, hl]; decide⟩, l', by rw [C29_exact .sha256, hl']; decide⟩
/-- Groestl-256: 55 bytes fit one block with the padding, 56 do not. -/
example : (∃ l, (groestl 64).core.finish ((groestl 64).core.updates (groestl 64).core.new l) = some 1) ∧
    ∃ l, (groestl 64).core.finish ((groestl 64).core.updates (groestl 64).core.new l) = some 2 := by
  obtain ⟨l, hl⟩ := exists_len 55
  obtain ⟨l', hl'⟩ := exists_len 56
  exact ⟨⟨l, (C29_exact (.groestl Groestl.short (.inl rfl)) l).trans (by rw [hl]; decide)⟩, l',
    (C29_exact (.groestl Groestl.short (.inl rfl)) l').trans (by rw [hl']; decide)⟩
/-- The release-profile SHA-256 computes the same 24. -/
example : (8 * (BitVec.ofNat 64 (Sha256.sha256.updates Sha256.sha256.new [[1], [2, 3]]).buf.pos +
    64 * (Sha256.sha256.updates Sha256.sha256.new [[1], [2, 3]]).core.blockLen)).toNat = 24 :=
  C29_agree (Tracks.sha256 (N := 32) rfl) _ 24 (by rw [C29_exact .sha256]; decide)

end Hashes
