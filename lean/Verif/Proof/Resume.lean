import Verif.Proof.HashersPlain
import Verif.Props.Catalogue
/- Checked hashers resumed from a deserialized state. -/
namespace Hashes
open Rs

/-- The value of the bookkeeping for a hasher that holds a message. -/
theorem Count.Book.Lawful.finish_rep {w : Nat} {k : Count.Book w} (_ : k.Lawful) {h : Hasher (Option (BitVec w))} {m : Bytes} (r : k.core.Rep h m) :
    k.core.finish h = (k.upd 0 (nFull k.kind k.bs m.length)).bind fun n =>
      k.fin n.toNat (m.length - nFull k.kind k.bs m.length * k.bs) := by
  have hp := r.1.length_content
  rw [r.2.2, List.length_drop] at hp
  simp only [Core.finish]
  rw [r.2.1]
  obtain ⟨c, b⟩ := h
  simp only [Count.Book.core] at hp
  simp only [Count.Book.core, hp, Option.bind_some, length_blocks]

/-- A counter that stands at `n` with `buf.pos` bytes buffered goes on as if `n` blocks and these bytes had been hashed. -/
theorem Count.Book.Lawful.finish_from {w : Nat} {k : Count.Book w} (H : k.Lawful) (he : k.kind = .eager)
    (hup : ∀ n : BitVec w, k.upd 0 n.toNat = some n) (n : BitVec w) {buf : BlockBuffer} (wf : buf.WF .eager k.bs) (l : List Bytes) :
    k.core.finish (k.core.updates ⟨some n, buf⟩ l) =
      k.core.finish (k.core.updates k.core.new [List.replicate (n.toNat * k.bs + buf.pos + l.flatten.length) 0]) := by
  have hp : buf.pos < k.bs := wf.2
  have hc := wf.length_content
  have hb := H.bs_pos
  have hdiv : (n.toNat * k.bs + buf.pos) / k.bs = n.toNat := by
    rw [Nat.add_comm, Nat.add_mul_div_right _ _ hb, Nat.div_eq_of_lt hp, Nat.zero_add]
  have r0 : k.core.Rep ⟨some n, buf⟩ (List.replicate (n.toNat * k.bs) 0 ++ buf.content) := by
    have e : nFull k.core.kind k.core.bs (List.replicate (n.toNat * k.bs) (0 : Byte) ++ buf.content).length = n.toNat := by
      rw [show k.core.kind = .eager from he, List.length_append, List.length_replicate, hc]
      exact hdiv
    refine ⟨by rw [show k.core.kind = .eager from he]; exact wf, ?_, ?_⟩
    · rw [e]
      simp only [Count.Book.core, Option.bind_some, length_blocks, hup]
    · rw [e, show k.core.bs = k.bs from rfl, List.drop_left' (List.length_replicate ..)]
  rw [H.finish_rep (r0.updates H.core l), H.finish]
  simp only [List.flatten_cons, List.flatten_nil, List.append_nil, List.length_append, List.length_replicate, hc]

theorem Count.upd_bump {w : Nat} (n : BitVec w) : Count.bump w 0 n.toNat = some n := by
  rw [Count.bump_zero, if_pos n.isLt, BitVec.ofNat_toNat, BitVec.setWidth_eq]

/-- What a resumed run of a counted hasher gives. -/
theorem Rs.Sim.resume_limit {w limit : Nat} {σ τ ω : Type} {cc : CoreC τ ω} {c : Core σ ω} {bs : Nat} {f : Nat → Nat → Option Nat}
    {rep : σ → τ} {ctr : σ → BitVec w} {inv inv' : σ → Prop} {value : Nat → Nat} (S : Sim cc c ⟨.eager, bs, Count.bump w, f⟩ rep ctr inv)
    (H : Counted ⟨.eager, bs, Count.bump w, f⟩ limit value) (L : c.Lawful inv') (h : Hasher σ) (hs : inv h.core) (wf : h.buf.WF c.kind c.bs)
    (l : List Bytes) :
    cc.resume (rep h.core) h.buf l =
      if c.bs * (ctr h.core).toNat + h.buf.pos + l.flatten.length < limit then some (c.finish (c.updates h l)) else none := by
  have hk : c.kind = .eager := S.kind'.symm
  have hb : bs = c.bs := S.bs'
  have hpos : 0 < bs := hb ▸ L.bs_pos
  rw [S.resume L h hs wf l, (Count.lawful_bump hpos).finish_from rfl Count.upd_bump _ (by rw [hk] at wf; exact hb ▸ wf) l, C29_exact H]
  simp only [List.flatten_cons, List.flatten_nil, List.append_nil, List.length_replicate]
  rw [hb, Nat.mul_comm]
  split <;> rfl

/-- The counter of a hasher that holds `m`, as long as it has not overflowed. -/
theorem Rs.Sim.held {w : Nat} {σ τ ω : Type} {cc : CoreC τ ω} {c : Core σ ω} {bs : Nat} {f : Nat → Nat → Option Nat} {rep : σ → τ}
    {ctr : σ → BitVec w} {inv : σ → Prop} (S : Sim cc c ⟨.eager, bs, Count.bump w, f⟩ rep ctr inv)
    (ctr0 : ctr c.init = 0) (inv0 : inv c.init) {h : Hasher σ} {m : Bytes} (r : c.Rep h m) (hm : m.length / c.bs < 2 ^ w) :
    inv h.core ∧ c.bs * (ctr h.core).toNat + h.buf.pos = m.length := by
  have hk : c.kind = .eager := S.kind'.symm
  have hn : nFull c.kind c.bs m.length = m.length / c.bs := by rw [hk]; rfl
  have hp := r.1.length_content
  have hle : nFull c.kind c.bs m.length * c.bs ≤ m.length := nFull_mul_le
  rw [r.2.2, List.length_drop] at hp
  have e := S.next c.init (blocks c.bs (nFull c.kind c.bs m.length) m) (BitVec.ofNat w (m.length / c.bs)) inv0
    (fun b hb => length_of_mem_blocks hle hb) (by
      rw [ctr0, length_blocks, hn]
      exact (Count.bump_zero _).trans (if_pos hm))
  rw [← r.2.1] at e
  refine ⟨e.2, ?_⟩
  rw [e.1, BitVec.toNat_ofNat, Nat.mod_eq_of_lt hm]
  rw [hn] at hp hle
  rw [Nat.mul_comm] at hp hle
  omega

theorem load_parts {σ ω : Type} {c : Core σ ω} {raw : Bytes} {h : Hasher σ} (hl : c.load raw = some h) :
    c.deserialize (raw.take c.serLen) = some h.core ∧ h.buf.WF c.kind c.bs := by
  simp only [Core.load] at hl
  split at hl
  · rename_i s b hs hb
    injection hl with hl
    subst hl
    exact ⟨hs, (BlockBuffer.serialize_deserialize hb).1⟩
  · cases hl

theorem Md2.shape_load {raw : Bytes} {s : State} (h : deserialize raw = some s) : Shape s := by
  unfold deserialize at h
  split at h
  · next hl => cases h; exact ⟨by rw [List.length_take, hl]; rfl, by rw [List.length_drop, hl]⟩
  · cases h

theorem Gost94.shape_load {raw : Bytes} {s : State} (h : deserialize raw = some s) : Shape s := by
  unfold deserialize at h
  split at h
  · next hl => cases h; show (raw.take 32).length = 32; rw [List.length_take, hl]; rfl
  · cases h

theorem Sha3.lanes_load {raw : Bytes} {s : Lanes} (h : deserialize raw = some s) : s.length = 25 := by
  unfold deserialize at h
  split at h
  · cases h; simp
  · cases h

theorem Fsb.ok_load {P : Params} {raw : Bytes} {s : State} (h : deserialize P raw = some s) : Ok P s := by
  unfold deserialize at h
  split at h
  · next hl => cases h; exact ⟨_, rfl, by rw [List.length_take, hl]; omega⟩
  · cases h

/-- Finalization always gives a digest. -/
theorem Fsb.finalize_some {P : Params} {PI : Bytes} (g : Good P) (hPI : P.n / P.r * (P.p / 8 + 1) ≤ PI.length) {s : State} (hs : Ok P s)
    {b : BlockBuffer} (wf : b.WF .eager P.bs) : finalize P PI s b = some ((finalize P PI s b).getD []) := by
  obtain ⟨h, e, hl⟩ := hs
  have gb := g.bs_ge
  have hc : b.content.length = b.pos := wf.length_content
  have hp : b.pos < P.bs := wf.2
  have hn : nFull .eager P.bs b.content.length = 0 := by rw [hc]; exact Nat.div_eq_of_lt hp
  unfold finalize
  simp only [BlockBuffer.len64PaddingBE]
  have e' := md_finalize (by omega) wf (delim := 0x80)
    (suffix := beBytes 8 (8 * (BitVec.ofNat 64 b.pos + BitVec.ofNat 64 P.bs * s.blocksLen)).toNat) (by simp; omega) (compressOpt P PI) s.state b.content
    (by rw [hn]; simp)
  rw [hn] at e'
  rw [show b.digestPad P.bs 0x80 _ (compressOpt P PI) s.state = _ from e', e, (foldl_eq g hPI _ (fun b hb => length_of_mem_chunks hb) h hl).1]
  rfl

end Hashes
