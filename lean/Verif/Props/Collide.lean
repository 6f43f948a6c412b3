import Verif.Proof.Collide.Basic
import Verif.Proof.Collide.Gost94
import Verif.Proof.Collide.Streebog
import Verif.Proof.Collide.Blake2
import Verif.Proof.Collide.Skein
import Verif.Proof.Collide.Belt
import Verif.Proof.Collide.Md2
import Verif.Proof.Collide.Fsb
import Verif.Proof.Collide.K12
/- C63: a collision of a hash that is chained or a tree, but not plain Merkle–Damgård (C50), yields a collision of its inner function,
among the calls that hashing the two messages makes. -/
namespace Hashes
open Spec
set_option exponentiation.threshold 600

/-! ### GOST R 34.11-94 -/

/-- C63 (GOST94). The digest is the iteration of the code's step function over the message blocks, the length and the checksum. -/
theorem C63_gost94_chain (sb : List (List Byte)) (h0 : Bytes) (hh : h0.length = 32) (m : Bytes) :
    let c := Gost94.gost94 sb h0
    c.finish (c.update c.new m) = (gostInput m).foldl (Gost94.f sb) h0 := Gost94.digest_chain hh m

/-- C63 (GOST94, for every S-box and initial value: all four parameter sets). -/
theorem C63_gost94 (sb : List (List Byte)) (h0 : Bytes) (hh : h0.length = 32) (m m' : Bytes) (hm : 8 * m.length < 2 ^ 256)
    (hm' : 8 * m'.length < 2 ^ 256) (hne : m ≠ m')
    (hd : let c := Gost94.gost94 sb h0; c.finish (c.update c.new m) = c.finish (c.update c.new m')) :
    CallsCollide (Gost94.f sb) (calls (Gost94.f sb) h0 (gostInput m)) (calls (Gost94.f sb) h0 (gostInput m')) := by
  refine fold_collision _ _ _ _ (Gost94.input_suffix hm hm' hne) (Gost94.input_suffix hm' hm hne.symm) ?_
  rw [← C63_gost94_chain sb h0 hh, ← C63_gost94_chain sb h0 hh]; exact hd

/-! ### Streebog -/

/-- C63 (Streebog-512). The digest is the iteration of the code's `g` over counters and blocks, the length and the checksum. -/
theorem C63_streebog_chain (m : Bytes) (hm : 8 * m.length < 2 ^ 448) : ∃ c, Streebog.core 64 = some c ∧
    c.finish (c.update c.new m) = Streebog.toBytes ((streebogInput m).foldl Streebog.gStep Streebog.zero) :=
  ⟨_, rfl, Streebog.digest_chain m hm⟩

/-- C63 (Streebog-512). -/
theorem C63_streebog {c : Core Streebog.State Bytes} (hc : Streebog.core 64 = some c) (m m' : Bytes) (hm : 8 * m.length < 2 ^ 448)
    (hm' : 8 * m'.length < 2 ^ 448) (hne : m ≠ m') (hd : c.finish (c.update c.new m) = c.finish (c.update c.new m')) :
    CallsCollide Streebog.gStep (calls Streebog.gStep Streebog.zero (streebogInput m))
      (calls Streebog.gStep Streebog.zero (streebogInput m')) := by
  refine fold_collision _ _ _ _ (Streebog.input_suffix hm hm' hne) (Streebog.input_suffix hm' hm hne.symm) ?_
  obtain ⟨c1, h1, e1⟩ := C63_streebog_chain m hm
  obtain ⟨c2, h2, e2⟩ := C63_streebog_chain m' hm'
  obtain rfl := Option.some.inj (hc.symm.trans h1)
  obtain rfl := Option.some.inj (hc.symm.trans h2)
  rw [e1, e2] at hd
  exact V8.toList_inj (bytesOfWordsLE_inj (by decide) rfl hd)

/-! ### BLAKE2 -/

/-- C63 (BLAKE2b-512, with or without personalization). The digest is the iteration of the code's `compress`. -/
theorem C63_blake2b_chain {persona : Bytes} {s : Blake2.State 64} (hs : Blake2.newWithParams Blake2.cfgB [] persona 0 64 = some s)
    (m : Bytes) (hm : m.length < 2 ^ 64) : let c := (Blake2.varCore Blake2.cfgB).ctWith 64 s
    c.finish (c.update c.new m) =
      bytesOfWordsLE (Blake2.hl ((blake2Input 128 m).foldl (Blake2.fStep Blake2.cfgB) s.h)) := by
  have := Blake2.digest_chain (n := 8) Blake2.goodB rfl hs m (fun k hk => Blake2.countB (by omega))
  rw [List.take_of_length_le (by rw [length_bytesOfWordsLE]; exact Nat.le_refl _)] at this
  exact this

/-- C63 (BLAKE2s-256). -/
theorem C63_blake2s_chain {persona : Bytes} {s : Blake2.State 32} (hs : Blake2.newWithParams Blake2.cfgS [] persona 0 32 = some s)
    (m : Bytes) : let c := (Blake2.varCore Blake2.cfgS).ctWith 32 s
    c.finish (c.update c.new m) =
      bytesOfWordsLE (Blake2.hl ((blake2Input 64 m).foldl (Blake2.fStep Blake2.cfgS) s.h)) := by
  have := Blake2.digest_chain (n := 4) Blake2.goodS rfl hs m (fun k _ => Blake2.countS k)
  rw [List.take_of_length_le (by rw [length_bytesOfWordsLE]; exact Nat.le_refl _)] at this
  exact this

/-- C63 (BLAKE2b-512). -/
theorem C63_blake2b {persona : Bytes} {s : Blake2.State 64} (hs : Blake2.newWithParams Blake2.cfgB [] persona 0 64 = some s)
    (m m' : Bytes) (hm : m.length < 2 ^ 64) (hm' : m'.length < 2 ^ 64) (hne : m ≠ m')
    (hd : let c := (Blake2.varCore Blake2.cfgB).ctWith 64 s; c.finish (c.update c.new m) = c.finish (c.update c.new m')) :
    CallsCollide (Blake2.fStep Blake2.cfgB) (calls (Blake2.fStep Blake2.cfgB) s.h (blake2Input 128 m))
      (calls (Blake2.fStep Blake2.cfgB) s.h (blake2Input 128 m')) := by
  refine fold_collision _ _ _ _ (Blake2.input_suffix hne) (Blake2.input_suffix hne.symm) (Blake2.hl_inj ?_)
  have e := C63_blake2b_chain hs m hm
  have e' := C63_blake2b_chain hs m' hm'
  simp only at e e' hd
  rw [e, e'] at hd
  exact bytesOfWordsLE_inj (by decide) rfl hd

/-- C63 (BLAKE2s-256). -/
theorem C63_blake2s {persona : Bytes} {s : Blake2.State 32} (hs : Blake2.newWithParams Blake2.cfgS [] persona 0 32 = some s)
    (m m' : Bytes) (hne : m ≠ m')
    (hd : let c := (Blake2.varCore Blake2.cfgS).ctWith 32 s; c.finish (c.update c.new m) = c.finish (c.update c.new m')) :
    CallsCollide (Blake2.fStep Blake2.cfgS) (calls (Blake2.fStep Blake2.cfgS) s.h (blake2Input 64 m))
      (calls (Blake2.fStep Blake2.cfgS) s.h (blake2Input 64 m')) := by
  refine fold_collision _ _ _ _ (Blake2.input_suffix hne) (Blake2.input_suffix hne.symm) (Blake2.hl_inj ?_)
  have e := C63_blake2s_chain hs m
  have e' := C63_blake2s_chain hs m'
  simp only at e e' hd
  rw [e, e'] at hd
  exact bytesOfWordsLE_inj (by decide) rfl hd

/-! ### Skein -/

/-- C63 (Skein with an output of the size of the state, for every cipher). -/
theorem C63_skein_chain {n : Nat} (E : Skein.Cipher n) (hn : 4 ≤ n) (m : Bytes) (hm : m.length < 2 ^ 64) :
    let c := Skein.core E (8 * n)
    c.finish (c.update c.new m) = Skein.oct ((skeinInput (8 * n) m).foldl (Skein.uStep E) (Skein.init E (8 * n)).x) :=
  Skein.digest_chain E hn m hm

/-- C63 (Skein). -/
theorem C63_skein {n : Nat} (E : Skein.Cipher n) (hn : 4 ≤ n) (m m' : Bytes) (hm : m.length < 2 ^ 64) (hm' : m'.length < 2 ^ 64)
    (hne : m ≠ m') (hd : let c := Skein.core E (8 * n); c.finish (c.update c.new m) = c.finish (c.update c.new m')) :
    CallsCollide (Skein.uStep E) (calls (Skein.uStep E) (Skein.init E (8 * n)).x (skeinInput (8 * n) m))
      (calls (Skein.uStep E) (Skein.init E (8 * n)).x (skeinInput (8 * n) m')) := by
  refine fold_collision _ _ _ _ (Skein.input_suffix (by omega) hm hm' hne) (Skein.input_suffix (by omega) hm' hm hne.symm) (Skein.oct_inj ?_)
  rw [← C63_skein_chain E hn m hm, ← C63_skein_chain E hn m' hm']; exact hd

/-! ### BelT -/

/-- C63 (BelT, for every cipher). -/
theorem C63_belt_chain (E : Belt.Cipher) (m : Bytes) : let c := Belt.belt E
    c.finish (c.update c.new m) = Belt.b8 ((Belt.input E m).foldl (fun h b => (Belt.yStep E h b).2) Belt.H0) := Belt.digest_chain E m

/-- C63 (BelT). -/
theorem C63_belt (E : Belt.Cipher) (m m' : Bytes) (hm : 8 * m.length < 2 ^ 128) (hm' : 8 * m'.length < 2 ^ 128) (hne : m ≠ m')
    (hd : let c := Belt.belt E; c.finish (c.update c.new m) = c.finish (c.update c.new m')) :
    CallsCollide (fun h b => (Belt.yStep E h b).2) (calls (fun h b => (Belt.yStep E h b).2) Belt.H0 (Belt.input E m))
      (calls (fun h b => (Belt.yStep E h b).2) Belt.H0 (Belt.input E m')) := by
  refine fold_collision _ _ _ _ (Belt.input_suffix E hm hm' hne) (Belt.input_suffix E hm' hm hne.symm) (Belt.b8_inj ?_)
  rw [← C63_belt_chain E, ← C63_belt_chain E]; exact hd

/-! ### MD2 -/

/-- C63 (MD2). The digest is the iteration of the code's `compress`, seen on the first 16 bytes, over the padded message and its
checksum. -/
theorem C63_md2_chain (m : Bytes) :
    Md2.md2.finish (Md2.md2.update Md2.md2.new m) = (Md2.input m).foldl Md2.xStep (List.replicate 16 0) := Md2.digest_chain m

/-- C63 (MD2; the padding has no length field, so a call that returns to the initial value is the other possibility). -/
theorem C63_md2 (m m' : Bytes) (hne : m ≠ m')
    (hd : Md2.md2.finish (Md2.md2.update Md2.md2.new m) = Md2.md2.finish (Md2.md2.update Md2.md2.new m')) :
    CallsCollide Md2.xStep (calls Md2.xStep (List.replicate 16 0) (Md2.input m)) (calls Md2.xStep (List.replicate 16 0) (Md2.input m')) ∨
    ∃ p ∈ calls Md2.xStep (List.replicate 16 0) (Md2.input m) ++ calls Md2.xStep (List.replicate 16 0) (Md2.input m'),
      Md2.xStep p.1 p.2 = List.replicate 16 0 := by
  rw [C63_md2_chain, C63_md2_chain] at hd
  rcases fold_suffix _ _ _ _ hd with h | ⟨z, e, hz⟩ | ⟨z, e, hz⟩
  · exact .inl h
  · obtain ⟨p, hp, h⟩ := last_call Md2.xStep (List.replicate 16 0) z (Md2.input m) (fun h0 => hne (Md2.input_inj (by rw [e, h0]; rfl))) hz
    exact .inr ⟨p, List.mem_append_right _ (by rw [e]; exact hp), h⟩
  · obtain ⟨p, hp, h⟩ := last_call Md2.xStep (List.replicate 16 0) z (Md2.input m') (fun h0 => hne (Md2.input_inj (by rw [e, h0]; rfl))) hz
    exact .inr ⟨p, List.mem_append_left _ (by rw [e]; exact hp), h⟩

/-! ### FSB -/

/-- The last chaining value of FSB. -/
def fsbLast (P : Fsb.Params) (PI m : Bytes) : Bytes :=
  (chunks P.bs (padBE P.bs 8 m)).foldl (Fsb.hStep P PI) (List.replicate (P.r / 8) 0)

/-- C63 (FSB). The digest is the truncated Whirlpool digest of the last chaining value. -/
theorem C63_fsb_chain (x : Fsb.Params × Spec.Fsb.Params) (hx : x ∈ fsbSets) (PI : Bytes) (hPI : PI.length = 272384) (m : Bytes) :
    let c := Fsb.core x.1 PI
    let w := Whirlpool.whirlpool
    c.finish (c.update c.new m) = some ((w.finish (w.update w.new (fsbLast x.1 PI m))).take x.1.out) := by
  obtain ⟨h1, h2, h3⟩ := fsbSets_mem hx
  exact Fsb.digest_chain (Fsb.good h1) (by rw [hPI]; exact h3) m

/-- C63 (FSB): a collision of the compression function, or of the truncated Whirlpool on the last chaining values. -/
theorem C63_fsb (x : Fsb.Params × Spec.Fsb.Params) (hx : x ∈ fsbSets) (PI : Bytes) (hPI : PI.length = 272384) (m m' : Bytes)
    (hm : 8 * m.length < 2 ^ 64) (hm' : 8 * m'.length < 2 ^ 64) (hne : m ≠ m')
    (hd : let c := Fsb.core x.1 PI; c.finish (c.update c.new m) = c.finish (c.update c.new m')) :
    let f := Fsb.hStep x.1 PI
    let iv : Bytes := List.replicate (x.1.r / 8) 0
    let w := Whirlpool.whirlpool
    CallsCollide f (calls f iv (chunks x.1.bs (padBE x.1.bs 8 m))) (calls f iv (chunks x.1.bs (padBE x.1.bs 8 m'))) ∨
    (fsbLast x.1 PI m ≠ fsbLast x.1 PI m' ∧ (w.finish (w.update w.new (fsbLast x.1 PI m))).take x.1.out =
      (w.finish (w.update w.new (fsbLast x.1 PI m'))).take x.1.out) := by
  obtain ⟨h1, h2, h3⟩ := fsbSets_mem hx
  have hb : 8 ≤ x.1.bs := by
    simp only [fsbSets, List.mem_cons, List.not_mem_nil, or_false] at hx
    rcases hx with rfl | rfl | rfl | rfl | rfl <;> decide
  have e := C63_fsb_chain x hx PI hPI
  simp only at e hd ⊢
  rw [e, e] at hd
  by_cases hl : fsbLast x.1 PI m = fsbLast x.1 PI m'
  · left
    have suf : ∀ m m' : Bytes, 8 * m.length < 2 ^ 64 → 8 * m'.length < 2 ^ 64 → m ≠ m' →
        ¬ chunks x.1.bs (padBE x.1.bs 8 m) <:+ chunks x.1.bs (padBE x.1.bs 8 m') := fun m m' hm hm' hne =>
      mdPad_suffix (by omega) (by decide) hb (by decide) (fun n => beBytes 8 (8 * n)) (fun n => by simp) (fun e => by
        have := beBytes_inj e
        rw [Nat.mod_eq_of_lt (by omega), Nat.mod_eq_of_lt (by omega)] at this; omega) hne
    exact fold_collision _ _ _ _ (suf m m' hm hm' hne) (suf m' m hm' hm hne.symm) hl
  · exact .inr ⟨hl, Option.some.inj hd⟩

/-! ### KangarooTwelve -/

/-- C63 (KT128). Two different pairs of message and customization string with the same output of `L` bytes show two different nodes
of the two trees, of the same output size, at which the code's TurboSHAKE128 agrees. -/
theorem C63_k12 (m c m' c' : Bytes) (L : Nat) (hl : m.length + c.length < 2 ^ 64) (hl' : m'.length + c'.length < 2 ^ 64)
    (hne : (m, c) ≠ (m', c'))
    (hd : (K12.xof.reads (K12.xof.reader ((K12.core c).finish ((K12.core c).update (K12.core c).new m))) [L]).1 =
      (K12.xof.reads (K12.xof.reader ((K12.core c').finish ((K12.core c').update (K12.core c').new m'))) [L]).1) :
    ∃ p ∈ kt128Nodes m c L, ∃ q ∈ kt128Nodes m' c' L, p ≠ q ∧ p.2.2 = q.2.2 ∧
      (K12.codeTurbo p.1 p.2.1 p.2.2).isSome ∧ K12.codeTurbo p.1 p.2.1 p.2.2 = K12.codeTurbo q.1 q.2.1 q.2.2 := by
  have e : ∀ m c, (K12.xof.reads (K12.xof.reader ((K12.core c).finish ((K12.core c).update (K12.core c).new m))) [L]).1 =
      Spec.K12.kt128 m c L := fun m c => by
    have := C23_k12 c [m] [L]
    simp only [List.flatten_singleton, List.sum_singleton] at this
    exact this
  rw [e, e] at hd
  obtain ⟨p, hp, q, hq, h1, h2, h3⟩ := K12.nodes_collide hl hl' hne hd
  refine ⟨p, hp, q, hq, h1, h2, ?_⟩
  rw [K12.codeTurbo_eq _ _ (K12.node_domain hp), K12.codeTurbo_eq _ _ (K12.node_domain hq), h3]
  exact ⟨rfl, rfl⟩

/-! ### Concrete cases: the hypotheses can be met, and what the arguments of the calls are -/

example : ∃ m m', m ≠ m' ∧ 8 * m.length < 2 ^ 256 ∧ 8 * m'.length < 2 ^ 256 ∧
    Gost94.cryptoPro.finish (Gost94.cryptoPro.update Gost94.cryptoPro.new m) =
      Gost94.cryptoPro.finish (Gost94.cryptoPro.update Gost94.cryptoPro.new m') := by
  obtain ⟨m, m', h1, h2, h3, h4⟩ := collision_exists
    (fun m => Gost94.cryptoPro.finish (Gost94.cryptoPro.update Gost94.cryptoPro.new m)) 32 (fun m _ => by
      rw [Gost94.cryptoPro, C63_gost94_chain _ _ (by decide), gostInput, List.foldl_append]
      exact Gost94.length_f _ _ _)
  exact ⟨m, m', h1, by omega, by omega, h4⟩

example : ∃ c m m', Streebog.core 64 = some c ∧ m ≠ m' ∧ 8 * m.length < 2 ^ 448 ∧ 8 * m'.length < 2 ^ 448 ∧
    c.finish (c.update c.new m) = c.finish (c.update c.new m') := by
  obtain ⟨c, hc⟩ : ∃ c, Streebog.core 64 = some c := ⟨_, rfl⟩
  obtain ⟨m, m', h1, h2, h3, h4⟩ := collision_exists (fun m => c.finish (c.update c.new m)) 64 (fun m hm => by
      obtain ⟨c1, e1, e2⟩ := C63_streebog_chain m (by omega)
      obtain rfl := Option.some.inj (hc.symm.trans e1)
      simp only [e2, Streebog.toBytes, length_bytesOfWordsLE]; rfl)
  exact ⟨c, m, m', hc, h1, by omega, by omega, h4⟩

example : ∃ s m m', Blake2.newWithParams Blake2.cfgB [] [] 0 64 = some s ∧ m ≠ m' ∧ m.length < 2 ^ 64 ∧ m'.length < 2 ^ 64 ∧
    (let c := (Blake2.varCore Blake2.cfgB).ctWith 64 s; c.finish (c.update c.new m) = c.finish (c.update c.new m')) := by
  obtain ⟨s, hs⟩ : ∃ s, Blake2.newWithParams Blake2.cfgB [] [] 0 64 = some s := ⟨_, rfl⟩
  obtain ⟨m, m', h1, h2, h3, h4⟩ := collision_exists (fun m => let c := (Blake2.varCore Blake2.cfgB).ctWith 64 s
    c.finish (c.update c.new m)) 64 (fun m hm => by
      have := C63_blake2b_chain hs m (by omega)
      simp only at this ⊢
      rw [this, length_bytesOfWordsLE]; rfl)
  exact ⟨s, m, m', hs, h1, by omega, by omega, h4⟩

example : ∃ s m m', Blake2.newWithParams Blake2.cfgS [] [] 0 32 = some s ∧ m ≠ m' ∧
    (let c := (Blake2.varCore Blake2.cfgS).ctWith 32 s; c.finish (c.update c.new m) = c.finish (c.update c.new m')) := by
  obtain ⟨s, hs⟩ : ∃ s, Blake2.newWithParams Blake2.cfgS [] [] 0 32 = some s := ⟨_, rfl⟩
  obtain ⟨m, m', h1, h2, h3, h4⟩ := collision_exists (fun m => let c := (Blake2.varCore Blake2.cfgS).ctWith 32 s
    c.finish (c.update c.new m)) 32 (fun m hm => by
      have := C63_blake2s_chain hs m
      simp only at this ⊢
      rw [this, length_bytesOfWordsLE]; rfl)
  exact ⟨s, m, m', hs, h1, h4⟩

example (E : Skein.Cipher 8) : ∃ m m', m ≠ m' ∧ m.length < 2 ^ 64 ∧ m'.length < 2 ^ 64 ∧
    (let c := Skein.core E 64; c.finish (c.update c.new m) = c.finish (c.update c.new m')) := by
  obtain ⟨m, m', h1, h2, h3, h4⟩ := collision_exists (fun m => let c := Skein.core E 64; c.finish (c.update c.new m)) 64
    (fun m hm => by
      have := C63_skein_chain E (by decide) m (by omega)
      simp only at this ⊢
      rw [this]; exact Skein.length_oct _)
  exact ⟨m, m', h1, by omega, by omega, h4⟩

example (E : Belt.Cipher) : ∃ m m', m ≠ m' ∧ 8 * m.length < 2 ^ 128 ∧ 8 * m'.length < 2 ^ 128 ∧
    (let c := Belt.belt E; c.finish (c.update c.new m) = c.finish (c.update c.new m')) := by
  obtain ⟨m, m', h1, h2, h3, h4⟩ := collision_exists (fun m => let c := Belt.belt E; c.finish (c.update c.new m)) 32
    (fun m hm => by
      have := C63_belt_chain E m
      simp only at this ⊢
      rw [this, Belt.b8, length_bytesOfWordsLE]; rfl)
  exact ⟨m, m', h1, by omega, by omega, h4⟩

example : ∃ m m', m ≠ m' ∧ Md2.md2.finish (Md2.md2.update Md2.md2.new m) = Md2.md2.finish (Md2.md2.update Md2.md2.new m') := by
  obtain ⟨m, m', h1, _, _, h4⟩ := collision_exists (fun m => Md2.md2.finish (Md2.md2.update Md2.md2.new m)) 16
    (fun m _ => Md2.length_digest m)
  exact ⟨m, m', h1, h4⟩

example (PI : Bytes) (hPI : PI.length = 272384) : ∃ m m', m ≠ m' ∧ 8 * m.length < 2 ^ 64 ∧ 8 * m'.length < 2 ^ 64 ∧
    (let c := Fsb.core Fsb.fsb256 PI; c.finish (c.update c.new m) = c.finish (c.update c.new m')) := by
  have e := C63_fsb_chain (Fsb.fsb256, Spec.Fsb.fsb256) (by simp [fsbSets]) PI hPI
  simp only at e ⊢
  obtain ⟨m, m', h1, h2, h3, h4⟩ := collision_exists (fun m => ((Fsb.core Fsb.fsb256 PI).finish ((Fsb.core Fsb.fsb256 PI).update
    (Fsb.core Fsb.fsb256 PI).new m)).getD []) 32 (fun m hm => by
      rw [e, Option.getD_some, List.length_take, show Whirlpool.whirlpool.finish (Whirlpool.whirlpool.update Whirlpool.whirlpool.new
        (fsbLast Fsb.fsb256 PI m)) = _ from Whirlpool.digest_md _, length_bytesOfWordsLE]; rfl)
  rw [e, e] at h4
  exact ⟨m, m', h1, by omega, by omega, by rw [e, e]; exact congrArg some h4⟩

example : ∃ m m', (m, []) ≠ (m', ([] : Bytes)) ∧ m.length < 2 ^ 64 ∧ m'.length < 2 ^ 64 ∧
    (K12.xof.reads (K12.xof.reader ((K12.core []).finish ((K12.core []).update (K12.core []).new m))) [32]).1 =
      (K12.xof.reads (K12.xof.reader ((K12.core []).finish ((K12.core []).update (K12.core []).new m'))) [32]).1 := by
  obtain ⟨m, m', h1, h2, h3, h4⟩ := collision_exists
    (fun m => (K12.xof.reads (K12.xof.reader ((K12.core []).finish ((K12.core []).update (K12.core []).new m))) [32]).1) 32
    (fun m hm => by
      have := C23_k12 [] [m] [32]
      simp only [List.flatten_singleton, List.sum_singleton] at this
      refine (congrArg List.length this).trans ?_
      rw [Spec.K12.kt128]
      simp only
      rw [if_pos (by simp [hm, Spec.K12.lengthEncode, Keccak.digits256])]
      exact K12.length_turbo _ _)
  exact ⟨m, m', fun h => h1 (Prod.mk.inj h).1, by omega, by omega, h4⟩

/-- Concrete case: the blocks for a short message of GOST94: message, length, checksum. -/
example : gostInput [1, 2] = [[1, 2] ++ List.replicate 30 0, [16] ++ List.replicate 31 0, [1, 2] ++ List.replicate 30 0] := by
  decide +kernel
/-- Concrete case: the byte counts and flags for 128, 129 and no bytes of BLAKE2b. -/
example : (blake2Input 128 (List.replicate 128 7)).map (fun x => (x.1, x.2.2)) = [(128, true)] ∧
    (blake2Input 128 (List.replicate 129 7)).map (fun x => (x.1, x.2.2)) = [(128, false), (129, true)] ∧
    blake2Input 128 [] = [(0, List.replicate 128 0, true)] := by decide +kernel
/-- Concrete case: the node of KT128 of an empty message. -/
example : kt128Nodes [] [] 32 = [([0], 0x07, 32)] := by decide +kernel

end Hashes
