import Verif.Proof.Wide.Basic
import Verif.Proof.Groestl
import Verif.Proof.Kupyna
import Verif.Proof.Jh
import Verif.Proof.Shabal
import Verif.Proof.Collide.Skein
import Verif.Proof.Collide.Streebog
/- The digests as an output function of an iteration of the code's compression functions. -/
namespace Hashes
open Spec

/-! ### Grøstl -/

namespace Groestl
variable {g : Cfg} {p : Spec.Groestl.Params}

/-- Number of blocks of the padded message. -/
def count (bs : Nat) (m : Bytes) : Nat := (m.length + 1 + zeroFill bs (m.length + 1 + 8) + 8) / bs

/-- Padding: a one bit, zeros, the number of blocks in 8 bytes. -/
def padMsg (bs : Nat) (m : Bytes) : Bytes := mdPad bs 0x80 (beBytes 8 (count bs m)) m

/-- The last lines of `finalize_variable_core` (`p` and the second half of the columns), /repo/groestl/src/lib.rs:91-105, :222-236,
and the truncation of `CtVariableCoreWrapper`. -/
def outWide (g : Cfg) (N : Nat) (s : Arr 64 g.cols) : Bytes := truncate .right N (bytesOfWordsBE ((pFinal g s).toList.drop (g.cols / 2)))

theorem digest_wide (hp : 8 ≤ g.cols) {N : Nat}
    (hcount : ∀ L : Nat, (if 8 * g.cols - L % (8 * g.cols) ≤ 8 then (0 + BitVec.ofNat 64 (L / (8 * g.cols))) + 2
        else (0 + BitVec.ofNat 64 (L / (8 * g.cols))) + 1 : W64) =
      BitVec.ofNat 64 ((L + 1 + zeroFill (8 * g.cols) (L + 1 + 8) + 8) / (8 * g.cols))) (m : Bytes) :
    ((varCore g).ctWith N ⟨init g N, 0⟩).digest m =
      outWide g N ((chunks (8 * g.cols) (padMsg (8 * g.cols) m)).foldl (compress g) (init g N)) := by
  obtain ⟨b, h1, h2, h3, h4⟩ := Core.digest_eager ((lawful (by omega)).ct N ⟨init g N, 0⟩) rfl m
  rw [h4]
  simp only [varCore, VarCore.ctWith] at h1 h2 h3 ⊢
  have hs : (beBytes 8 (count (8 * g.cols) m)).length ≤ 8 * g.cols := by simp; omega
  have e := md_finalize (bs := 8 * g.cols) (by omega) h1 (delim := 0x80) hs (compress g) (init g N) m h2
  rw [show nFull .eager (8 * g.cols) m.length = m.length / (8 * g.cols) from rfl] at e
  simp only [finalizeFull, updateBlocks, h3, length_blocks, BlockBuffer.len64PaddingBE, hcount]
  rw [beBytes_counter (by decide)]
  simp only [count] at e
  rw [e]
  rfl

theorem padMsg_suffix {bs : Nat} (hb : 8 ≤ bs) {m m' : Bytes} (hm : count bs m < 2 ^ 64) (hm' : count bs m' < 2 ^ 64) (hne : m ≠ m') :
    ¬ chunks bs (padMsg bs m) <:+ chunks bs (padMsg bs m') := by
  have hl : ∀ m, (padMsg bs m).length = bs * count bs m := fun m => by
    have hd : bs ∣ (padMsg bs m).length := length_mdPad_dvd (by omega)
    have e : (padMsg bs m).length = m.length + 1 + zeroFill bs (m.length + 1 + 8) + 8 := by simp [padMsg, mdPad]; omega
    rw [count, ← e, Nat.mul_div_cancel' hd]
  refine pad_suffix (pad := padMsg bs) (sl := 8) (by omega) (by decide) hb (enc := fun m => beBytes 8 (count bs m)) (fun m => rfl) (fun m => by simp)
    (fun m => length_mdPad_dvd (by omega)) (fun h => ?_) (fun h => mdPad_inj (by decide) (by simp) h) hne
  have := beBytes_inj h
  rw [Nat.mod_eq_of_lt (by omega), Nat.mod_eq_of_lt (by omega)] at this
  rw [hl, hl, this]

end Groestl

/-! ### Kupyna -/

namespace Kupyna
variable {g : Cfg}

/-- The last lines of `finalize_variable_core` (`t_xor_l` and the second half of the columns), /repo/kupyna/src/short.rs:67-95,
/repo/kupyna/src/long.rs, and the truncation of `CtVariableCoreWrapper`. -/
def outWide (g : Cfg) (N : Nat) (s : Arr 64 g.cols) : Bytes :=
  let s8 := bytesOfWordsBE s.toList
  let r := xorBytes s8 (tXor g s8)
  let r : Arr 64 g.cols := Arr.ofFn g.cols (wordBE 64 r)
  truncate .right N (bytesOfWordsBE (r.toList.drop (g.cols / 2)))

theorem digest_wide (hp : 8 ≤ g.cols) (hq : g.cols ≤ 16) {N : Nat} (m : Bytes) (hm : m.length / (8 * g.cols) < 2 ^ 64) :
    ((varCore g).ctWith N (init g)).digest m =
      outWide g N ((chunks (8 * g.cols) (mdPad (8 * g.cols) 0x80 (leBytes 12 (8 * m.length)) m)).foldl (compress g) (init g).state) := by
  obtain ⟨b, h1, h2, h3, h4⟩ := Core.digest_eager ((lawful hp).ct N (init g)) rfl m
  rw [h4]
  simp only [varCore, VarCore.ctWith] at h1 h2 h3 ⊢
  have hs : (leBytes 12 (8 * m.length)).length ≤ 8 * g.cols := by simp; omega
  have e := md_finalize (bs := 8 * g.cols) (by omega) h1 (delim := 0x80) hs (compress g) (init g).state m h2
  rw [show nFull .eager (8 * g.cols) m.length = m.length / (8 * g.cols) from rfl] at e
  have hf := length_field (8 * g.cols) m.length (by omega) hm (by omega)
  simp only [finalizeFull, updateBlocks, h3, length_blocks]
  rw [show (init g).blocksLen = 0 from rfl, hf, e]
  rfl

end Kupyna

/-! ### JH -/

namespace Jh

/-- The last lines of `finalize_variable_core` (the second half of the state), /repo/jh/src/lib.rs:93-106, and the truncation of
`CtVariableCoreWrapper`. -/
def outWide (N : Nat) (s : V8 W128) : Bytes := truncate .right N ((bytesOfWordsLE s.toList).drop 64)

theorem bytes_inj {a b : V8 W128} (h : bytes a = bytes b) : a = b :=
  V8.toList_inj (bytesOfWordsLE_inj (by decide) rfl h)

theorem digest_wide {N : Nat} {s0 : State} (h0 : new N = some s0) (m : Bytes) (hm : 8 * m.length < 2 ^ 64) :
    (varCore.ctWith N s0).digest m = outWide N ((chunks 64 (Spec.Jh.pad m)).foldl f8 s0.state) := by
  have hs : bytes s0.state = Spec.Jh.iv N ∧ N ≤ 64 := by
    unfold new at h0
    split at h0
    · injection h0 with h0; subst h0; exact ⟨iv_eq _ _ (by decide), by decide⟩
    · injection h0 with h0; subst h0; exact ⟨iv_eq _ _ (by decide), by decide⟩
    · injection h0 with h0; subst h0; exact ⟨iv_eq _ _ (by decide), by decide⟩
    · injection h0 with h0; subst h0; exact ⟨iv_eq _ _ (by decide), by decide⟩
    · cases h0
  rw [digest_eq h0 m hm, Spec.Jh.hash, ← hs.1, ← foldl_f8 _ (fun b hb => length_of_mem_chunks hb), outWide, truncate]
  have hl : ∀ y : V8 W128, ((bytes y).drop 64).length = 64 := fun y => by simp [length_bytes]
  simp only [show ∀ y : V8 W128, bytesOfWordsLE y.toList = bytes y from fun _ => rfl, hl, List.drop_drop]
  congr 1
  have := hs.2
  omega

theorem pad_suffix' {m m' : Bytes} (hm : 8 * m.length < 2 ^ 128) (hm' : 8 * m'.length < 2 ^ 128) (hne : m ≠ m') :
    ¬ chunks 64 (Spec.Jh.pad m) <:+ chunks 64 (Spec.Jh.pad m') := by
  have hl : ∀ m, (Spec.Jh.pad m).length = m.length + 1 + (47 + (64 - m.length % 64) % 64) + 16 := fun m => by
    simp [Spec.Jh.pad]; omega
  refine pad_suffix (pad := Spec.Jh.pad) (sl := 16) (by decide) (by decide) (by decide) (enc := fun m => beBytes 16 (8 * m.length)) (fun m => rfl) (fun m => by simp)
    (fun m => by rw [hl]; omega) (fun h => ?_) (fun h => (delim_inj (by decide) (by decide) (by simp) h).1) hne
  have := beBytes_inj h
  rw [Nat.mod_eq_of_lt (by omega), Nat.mod_eq_of_lt (by omega)] at this
  have : m.length = m'.length := by omega
  rw [hl, hl, this]

end Jh

/-! ### Shabal -/

namespace Shabal

/-- The steps of the code: `compress`, and for the marked block the permutations of `finalize_variable_core`,
/repo/shabal/src/core_api.rs:214-232. -/
def wStep (s : State) (b : Bytes × Bool) : State :=
  if b.2 then
    let m := readM b.1
    (List.range 3).foldl (fun s _ => perm (xorW (swapBC s)) m) (perm (xorW (addM s m)) m)
  else compress s b.1

/-- The last lines of `finalize_variable_core` (the words `B`), /repo/shabal/src/core_api.rs:214-232, and the truncation of
`CtVariableCoreWrapper`. -/
def outWide (N : Nat) (s : State) : Bytes := truncate .right N (bytesOfWordsLE s.b.toList)

theorem last_chunk (m : Bytes) {b : BlockBuffer} (h1 : b.WF .eager 64) (h2 : b.content = m.drop (m.length / 64 * 64)) :
    chunks 64 (mdPad 64 0x80 [] m) = blocks 64 (m.length / 64) m ++ [(b.padWithZeros 64).1.set b.pos 0x80] := by
  have hlt : b.pos < 64 := h1.2
  have hl : b.content.length = b.pos := h1.length_content
  have hlast : (b.padWithZeros 64).1.set b.pos 0x80 = b.content ++ [0x80] ++ List.replicate (63 - b.pos) 0 := by
    rw [show (b.padWithZeros 64).1 = b.content ++ List.replicate (64 - b.pos) 0 from rfl,
      show 64 - b.pos = (63 - b.pos) + 1 by omega, List.replicate_succ, List.set_append_right _ _ (by omega), hl, Nat.sub_self,
      List.set_cons_zero, List.append_assoc]
    rfl
  rw [chunks_mdPad (by decide), ← h2, mdPad, hlast]
  have hz : zeroFill 64 (b.content.length + 1 + ([] : Bytes).length) = 63 - b.pos := by
    rw [hl, zeroFill, List.length_nil]; omega
  rw [hz, List.append_nil]
  congr 1
  exact chunks_single (by decide) (by simp [hl]; omega)

theorem wStep_false (s : State) (b : Bytes) : wStep s (b, false) = compress s b := by rw [wStep]; exact if_neg Bool.false_ne_true

theorem wStep_true (s : State) (b : Bytes) : wStep s (b, true) =
    (List.range 3).foldl (fun s _ => perm (xorW (swapBC s)) (readM b)) (perm (xorW (addM s (readM b))) (readM b)) := by
  rw [wStep]; exact if_pos rfl

theorem foldl_unmarked (l : List Bytes) (s : State) : (l.map (·, false)).foldl wStep s = l.foldl compress s := by
  rw [List.foldl_map]; simp only [wStep_false]

attribute [local irreducible] perm xorW addM subM compress wStep

theorem digest_wide {N : Nat} (s0 : State) (m : Bytes) :
    (varCore.ctWith N s0).digest m = outWide N ((shabalInput m).foldl wStep s0) := by
  obtain ⟨b, h1, h2, h3, h4⟩ := Core.digest_eager (lawful.ct N s0) rfl m
  rw [h4]
  simp only [varCore, VarCore.ctWith] at h1 h2 h3 ⊢
  rw [shabalInput, last_chunk m h1 h2]
  simp only [List.dropLast_concat, List.getLastD_concat, List.foldl_append, foldl_unmarked, List.foldl_cons (l := []), List.foldl_nil, wStep_true]
  simp only [finalizeFull, updateBlocks, outWide]

theorem length_unmarked (m : Bytes) : ∃ l, shabalInput m = l.map (·, false) ++ [((chunks 64 (mdPad 64 0x80 [] m)).getLastD [], true)] ∧
    l.length = m.length / 64 ∧ chunks 64 (mdPad 64 0x80 [] m) = l ++ [(chunks 64 (mdPad 64 0x80 [] m)).getLastD []] := by
  refine ⟨_, rfl, ?_, ?_⟩
  · have hlt := Nat.mod_lt m.length (show 64 > 0 by decide)
    rw [List.length_dropLast, length_chunks, mdPad]
    simp [zeroFill]; omega
  · have hlt := Nat.mod_lt m.length (show 64 > 0 by decide)
    have hne : chunks 64 (mdPad 64 0x80 [] m) ≠ [] := fun h => by
      have := congrArg List.length h
      rw [length_chunks, mdPad] at this
      simp [zeroFill] at this; omega
    rw [List.getLastD_eq_getLast?, List.getLast?_eq_some_getLast hne, Option.getD_some, List.dropLast_concat_getLast]

theorem fold_w (l : List Bytes) (s : State) : (l.foldl compress s).w = s.w + BitVec.ofNat 64 l.length := (fold_eq l s).2

/-- A run of unmarked blocks that leads back to its start is empty, or has at least `2^64` blocks. -/
theorem back_nil {l : List Bytes} (hl : l.length < 2 ^ 64) {s : State} (h : l.foldl compress s = s) : l = [] := by
  have hw := fold_w l s
  rw [h] at hw
  have : BitVec.ofNat 64 l.length = 0 := by
    have : s.w - s.w = s.w + BitVec.ofNat 64 l.length - s.w := by rw [← hw]
    rw [BitVec.sub_self, BitVec.add_comm, BitVec.add_sub_cancel] at this
    exact this.symm
  have := congrArg BitVec.toNat this
  rw [BitVec.toNat_ofNat, Nat.mod_eq_of_lt hl] at this
  exact List.eq_nil_of_length_eq_zero this

theorem shabalInput_inj {m m' : Bytes} (h : shabalInput m = shabalInput m') : m = m' := by
  obtain ⟨l, e1, -, e2⟩ := length_unmarked m
  obtain ⟨l', e1', -, e2'⟩ := length_unmarked m'
  rw [e1, e1'] at h
  obtain ⟨ha, hb⟩ := List.append_inj' h rfl
  have ha := congrArg (List.map Prod.fst) ha
  rw [List.map_map, List.map_map, show Prod.fst ∘ (fun x : Bytes => (x, false)) = id from rfl, List.map_id, List.map_id] at ha
  have hb := (Prod.mk.inj (List.cons.inj hb).1).1
  have : chunks 64 (mdPad 64 0x80 [] m) = chunks 64 (mdPad 64 0x80 [] m') := by rw [e2, e2', ha, hb]
  have := congrArg List.flatten this
  rw [chunks_flatten (length_mdPad_dvd (by decide)), chunks_flatten (length_mdPad_dvd (by decide))] at this
  exact mdPad_inj (by decide) rfl this

/-- When one input is a suffix of the other and the rest leads back to the start, the messages are the same. -/
theorem suffix_back {m m' : Bytes} (hm' : m'.length / 64 < 2 ^ 64) {s0 : State} {z : List (Bytes × Bool)}
    (hz : shabalInput m' = z ++ shabalInput m) (hf : z.foldl wStep s0 = s0) : m = m' := by
  obtain ⟨l, e1, -, -⟩ := length_unmarked m
  obtain ⟨l', e1', hl', -⟩ := length_unmarked m'
  have hz' := hz
  rw [e1, e1', ← List.append_assoc] at hz'
  have h1 := (List.append_inj' hz' rfl).1
  obtain ⟨u, hu⟩ : ∃ u : List Bytes, z = u.map (·, false) := by
    refine ⟨l'.take z.length, ?_⟩
    rw [List.map_take, h1, List.take_left' rfl]
  subst hu
  rw [foldl_unmarked] at hf
  have hul : u.length ≤ l'.length := by
    have := congrArg List.length h1
    simp at this; omega
  have := back_nil (by omega) hf
  subst this
  exact (shabalInput_inj (by simpa using hz)).symm

theorem wide {m m' : Bytes} (hm : m.length / 64 < 2 ^ 64) (hm' : m'.length / 64 < 2 ^ 64) (hne : m ≠ m') {s0 : State} {ω : Type} {out : State → ω}
    (h : out ((shabalInput m).foldl wStep s0) = out ((shabalInput m').foldl wStep s0)) :
    WideCollide wStep s0 out (shabalInput m) (shabalInput m') := by
  by_cases e : (shabalInput m).foldl wStep s0 = (shabalInput m').foldl wStep s0
  · rcases fold_suffix wStep s0 _ _ e with h | ⟨z, h1, h2⟩ | ⟨z, h1, h2⟩
    · exact .inl h
    · exact absurd (suffix_back hm' h1 h2) hne
    · exact absurd (suffix_back hm h1 h2).symm hne
  · exact .inr ⟨e, h⟩

end Shabal

end Hashes
