import Verif.Checked.WorldVar
import Verif.Props.WorldPlain
/-
C72: programs on hashers whose output size is chosen at run time (Blake2bVar, Blake2sVar, GroestlShortVar, GroestlLongVar, KupynaShortVar,
KupynaLongVar) in a build with overflow checks.
-/
namespace Hashes
open Rs

/-- What a program on run-time-sized hashers should see, in terms of messages only. -/
structure Spec.RtHash where
  /-- the output sizes -/
  ok : Nat → Prop
  /-- the digest of a message with that many bytes -/
  hash : Nat → Bytes → Bytes
  /-- the lengths to which `update` may lead -/
  upd : Nat → Prop
  /-- the lengths of messages that can be finalized -/
  fin : Nat → Prop

/-- A live hasher is an output size and the message it was given. -/
abbrev Spec.RtLog := Nat → Option (Nat × Bytes)

open Classical in
/-- What one call should do: outer `none` is a panic. -/
noncomputable def Spec.RtHash.step (H : Spec.RtHash) (v : Spec.RtLog) : RtOp → Option (Spec.RtLog × Option RtOut)
  | .new h n => some (if H.ok n then (setAt v h (some (n, [])), some .created) else (v, some .invalidOutputSize))
  | .update h d =>
    match v h with
    | some (n, m) => if H.upd (m.length + d.length) then some (setAt v h (some (n, m ++ d)), none) else none
    | none => some (v, none)
  | .clone s d =>
    match v s with
    | some x => some (setAt v d (some x), none)
    | none => some (v, none)
  | .reset h =>
    match v h with
    | some (n, _) => some (setAt v h (some (n, [])), none)
    | none => some (v, none)
  | .finalizeReset h len =>
    match v h with
    | some (n, m) =>
      if len ≠ n then some (v, some .invalidBufferSize)
      else if H.fin m.length then some (setAt v h (some (n, [])), some (.digest (H.hash n m))) else none
    | none => some (v, none)
  | .finalize h len =>
    match v h with
    | some (n, m) =>
      if len ≠ n then some (setAt v h none, some .invalidBufferSize)
      else if H.fin m.length then some (setAt v h none, some (.digest (H.hash n m))) else none
    | none => some (v, none)

/-- What a program should see. -/
noncomputable def Spec.RtHash.run (H : Spec.RtHash) (v : Spec.RtLog) : List RtOp → Option (List RtOut)
  | [] => some []
  | op :: ops => (H.step v op).bind fun r => (Spec.RtHash.run H r.1 ops).map fun os => r.2.toList ++ os

/-- `R n x m`: the core and buffer `x` are those of a hasher of size `n` that was given `m`. -/
structure RtSim {τ : Type} (V : VarC τ) (H : Spec.RtHash) (R : Nat → τ × BlockBuffer → Bytes → Prop) : Prop where
  new : ∀ n, H.ok n → ∃ s, V.new n = some (some s) ∧ R n (s, BlockBuffer.empty (V.core n).bs) []
  bad : ∀ n, ¬ H.ok n → V.new n = some none
  upd : ∀ n x m d, R n x m → H.upd (m.length + d.length) → ∃ y, (V.core n).updateC x d = some y ∧ R n y (m ++ d)
  updBad : ∀ n x m d, R n x m → ¬ H.upd (m.length + d.length) → (V.core n).updateC x d = none
  fin : ∀ n x m, R n x m → H.fin m.length → (V.core n).finalize x.1 x.2 = some (H.hash n m)
  finBad : ∀ n x m, R n x m → ¬ H.fin m.length → (V.core n).finalize x.1 x.2 = none
  reset : ∀ n x m f, R n x m → V.reset = some f → R n (f x.1, x.2.reset) []

/-- The variables of the program and the messages agree. -/
def RtMatch {τ : Type} (R : Nat → τ × BlockBuffer → Bytes → Prop) : Option (RtC τ) → Option (Nat × Bytes) → Prop
  | none, none => True
  | some r, some (n, m) => r.size = n ∧ R n r.x m
  | _, _ => False

theorem RtMatch.set {τ : Type} {R : Nat → τ × BlockBuffer → Bytes → Prop} {w : Nat → Option (RtC τ)} {v : Spec.RtLog}
    (M : ∀ h, RtMatch R (w h) (v h)) (h : Nat) {x : Option (RtC τ)} {y : Option (Nat × Bytes)} (hx : RtMatch R x y) :
    ∀ h', RtMatch R (setAt w h x h') (setAt v h y h') := by
  intro h'
  unfold setAt
  split
  · exact hx
  · exact M h'

/-- Each call does what it should. -/
theorem RtSim.step {τ : Type} {V : VarC τ} {H : Spec.RtHash} {R : Nat → τ × BlockBuffer → Bytes → Prop} (S : RtSim V H R)
    {w : Nat → Option (RtC τ)} {v : Spec.RtLog} (M : ∀ h, RtMatch R (w h) (v h)) (op : RtOp) (hr : V.reset.isSome = true ∨ op.usesReset = false) :
    (V.step w op = none ∧ H.step v op = none) ∨
    ∃ w' v' o, V.step w op = some (w', o) ∧ H.step v op = some (v', o) ∧ ∀ h, RtMatch R (w' h) (v' h) := by
  have fin : ∀ (r : RtC τ) (n : Nat) (m : Bytes) (len : Nat), r.size = n → R n r.x m →
      (len ≠ n ∧ r.finalizeDirty V len = some none) ∨
      (len = n ∧ ((H.fin m.length ∧ r.finalizeDirty V len = some (some (H.hash n m))) ∨ (¬ H.fin m.length ∧ r.finalizeDirty V len = none))) := by
    rintro r _ m len rfl hR
    by_cases hl : len = r.size
    · refine .inr ⟨hl, ?_⟩
      have e : r.finalizeDirty V len = ((V.core r.size).finalize r.x.1 r.x.2).map some := if_neg (fun h => h hl)
      by_cases hf : H.fin m.length
      · exact .inl ⟨hf, by rw [e, S.fin _ _ _ hR hf]; rfl⟩
      · exact .inr ⟨hf, by rw [e, S.finBad _ _ _ hR hf]; rfl⟩
    · exact .inl ⟨hl, if_pos hl⟩
  cases op with
  | new h n =>
    right
    by_cases hn : H.ok n
    · obtain ⟨s, e, hR⟩ := S.new n hn
      exact ⟨setAt w h (some ⟨(s, BlockBuffer.empty (V.core n).bs), n⟩), setAt v h (some (n, [])), some .created,
        by simp only [VarC.step, e]; rfl, by simp only [Spec.RtHash.step, if_pos hn], RtMatch.set M h ⟨rfl, hR⟩⟩
    · exact ⟨w, v, some .invalidOutputSize, by simp only [VarC.step, S.bad n hn]; rfl, by simp only [Spec.RtHash.step, if_neg hn], M⟩
  | update h d =>
    have Mh := M h
    simp only [VarC.step, Spec.RtHash.step]
    rcases hw : w h with _ | r <;> rcases hv : v h with _ | ⟨n, m⟩ <;> rw [hw, hv] at Mh
    · exact .inr ⟨w, v, none, rfl, rfl, M⟩
    · exact Mh.elim
    · exact Mh.elim
    · obtain ⟨rfl, hR⟩ := Mh
      by_cases hu : H.upd (m.length + d.length)
      · obtain ⟨y, e, hR'⟩ := S.upd _ _ _ d hR hu
        exact .inr ⟨setAt w h (some { r with x := y }), setAt v h (some (r.size, m ++ d)), none, by simp only [e]; rfl, by simp only [if_pos hu],
          RtMatch.set M h ⟨rfl, hR'⟩⟩
      · exact .inl ⟨by simp only [S.updBad _ _ _ d hR hu]; rfl, by simp only [if_neg hu]⟩
  | clone s d =>
    have Mh := M s
    simp only [VarC.step, Spec.RtHash.step]
    rcases hw : w s with _ | r <;> rcases hv : v s with _ | x <;> rw [hw, hv] at Mh
    · exact .inr ⟨w, v, none, rfl, rfl, M⟩
    · exact Mh.elim
    · exact Mh.elim
    · exact .inr ⟨setAt w d (some r), setAt v d (some x), none, rfl, rfl, RtMatch.set M d Mh⟩
  | reset h =>
    obtain ⟨f, hf⟩ := Option.isSome_iff_exists.1 (hr.resolve_right (fun h => nomatch h))
    have Mh := M h
    simp only [VarC.step, Spec.RtHash.step]
    rcases hw : w h with _ | r <;> rcases hv : v h with _ | ⟨n, m⟩ <;> rw [hw, hv] at Mh
    · exact .inr ⟨w, v, none, rfl, rfl, M⟩
    · exact Mh.elim
    · exact Mh.elim
    · obtain ⟨rfl, hR⟩ := Mh
      exact .inr ⟨setAt w h (some { r with x := (f r.x.1, r.x.2.reset) }), setAt v h (some (r.size, [])), none, by rw [hf]; rfl, rfl,
        RtMatch.set M h ⟨rfl, S.reset _ _ _ f hR hf⟩⟩
  | finalizeReset h len =>
    obtain ⟨f, hf⟩ := Option.isSome_iff_exists.1 (hr.resolve_right (fun h => nomatch h))
    have Mh := M h
    simp only [VarC.step, Spec.RtHash.step]
    rcases hw : w h with _ | r <;> rcases hv : v h with _ | ⟨n, m⟩ <;> rw [hw, hv] at Mh
    · exact .inr ⟨w, v, none, rfl, rfl, M⟩
    · exact Mh.elim
    · exact Mh.elim
    · obtain ⟨rfl, hR⟩ := Mh
      rcases fin r _ m len rfl hR with ⟨hl, e⟩ | ⟨hl, ⟨hm, e⟩ | ⟨hm, e⟩⟩
      · exact .inr ⟨w, v, some .invalidBufferSize, by simp only [hf, e]; rfl, by simp only [if_pos hl], M⟩
      · exact .inr ⟨setAt w h (some { r with x := (f r.x.1, r.x.2.reset) }), setAt v h (some (r.size, [])), some (.digest (H.hash r.size m)),
          by simp only [hf, e]; rfl, by simp only [if_neg (not_not.2 hl), if_pos hm], RtMatch.set M h ⟨rfl, S.reset _ _ _ f hR hf⟩⟩
      · exact .inl ⟨by simp only [hf, e]; rfl, by simp only [if_neg (not_not.2 hl), if_neg hm]⟩
  | finalize h len =>
    have Mh := M h
    simp only [VarC.step, Spec.RtHash.step]
    rcases hw : w h with _ | r <;> rcases hv : v h with _ | ⟨n, m⟩ <;> rw [hw, hv] at Mh
    · exact .inr ⟨w, v, none, rfl, rfl, M⟩
    · exact Mh.elim
    · exact Mh.elim
    · obtain ⟨rfl, hR⟩ := Mh
      have M' : ∀ h', RtMatch R (setAt w h none h') (setAt v h none h') := RtMatch.set (x := none) (y := none) M h trivial
      rcases fin r _ m len rfl hR with ⟨hl, e⟩ | ⟨hl, ⟨hm, e⟩ | ⟨hm, e⟩⟩
      · exact .inr ⟨_, _, some .invalidBufferSize, by simp only [e]; rfl, by simp only [if_pos hl], M'⟩
      · exact .inr ⟨_, _, some (.digest (H.hash r.size m)), by simp only [e]; rfl, by simp only [if_neg (not_not.2 hl), if_pos hm], M'⟩
      · exact .inl ⟨by simp only [e]; rfl, by simp only [if_neg (not_not.2 hl), if_neg hm]⟩

theorem RtSim.run {τ : Type} {V : VarC τ} {H : Spec.RtHash} {R : Nat → τ × BlockBuffer → Bytes → Prop} (S : RtSim V H R) (ops : List RtOp)
    (hr : V.reset.isSome = true ∨ ∀ op ∈ ops, op.usesReset = false) {w : Nat → Option (RtC τ)} {v : Spec.RtLog}
    (M : ∀ h, RtMatch R (w h) (v h)) : V.run w ops = H.run v ops := by
  induction ops generalizing w v with
  | nil => rfl
  | cons op ops ih =>
    rcases S.step M op (hr.imp_right fun h => h op List.mem_cons_self) with ⟨e1, e2⟩ | ⟨w', v', o, e1, e2, M'⟩
    · simp only [VarC.run, Spec.RtHash.run, e1, e2]; rfl
    · have e := ih (hr.imp_right fun h op hop => h op (List.mem_cons_of_mem _ hop)) M'
      have l : V.run w (op :: ops) = (V.run w' ops).map fun os => o.toList ++ os := by
        rw [VarC.run, e1]
        show ((V.run w' ops).bind fun os => some (o.toList ++ os)) = _
        cases V.run w' ops <;> rfl
      rw [l, Spec.RtHash.run, e2, e]
      rfl

/-- One output size: what the counter book says about an object. -/
def RtHeld {w : Nat} {σ τ : Type} (k : Count.Book w) (c : Core σ Bytes) (rep : σ → τ) (ctr : σ → BitVec w) (x : τ × BlockBuffer) (m : Bytes) : Prop :=
  ∃ h : Hasher σ, x = (rep h.core, h.buf) ∧ c.Rep h m ∧ k.core.Rep ⟨some (ctr h.core), h.buf⟩ m

section
variable {w : Nat} {σ τ : Type} {cc : CoreC τ Bytes} {c : Core σ Bytes} {k : Count.Book w} {rep : σ → τ} {ctr : σ → BitVec w} {inv : σ → Prop}

theorem RtHeld.new (Si : Sim cc c k rep ctr fun _ => True) (L : c.Lawful inv) (K : k.Lawful) (ctr0 : ctr c.init = 0) :
    RtHeld k c rep ctr (rep c.init, BlockBuffer.empty cc.bs) [] := by
  refine ⟨c.new, by rw [Si.bs]; rfl, .new L, ?_⟩
  have e : (⟨some (ctr c.new.core), c.new.buf⟩ : Hasher (Option (BitVec w))) = k.core.new := by
    show (⟨some (ctr c.init), .empty c.bs⟩ : Hasher (Option (BitVec w))) = ⟨some 0, .empty k.bs⟩
    rw [ctr0, Si.bs']
  rw [e]; exact .new K.core

theorem RtHeld.update (Si : Sim cc c k rep ctr fun _ => True) (L : c.Lawful inv) (K : k.Lawful) {x : τ × BlockBuffer} {m : Bytes}
    (H : RtHeld k c rep ctr x m) (d : Bytes) :
    ((k.upd 0 (nFull k.kind k.bs (m.length + d.length))).isSome = true → ∃ y, cc.updateC x d = some y ∧ RtHeld k c rep ctr y (m ++ d)) ∧
    ((k.upd 0 (nFull k.kind k.bs (m.length + d.length))).isSome = false → cc.updateC x d = none) := by
  obtain ⟨h, rfl, r, rk⟩ := H
  obtain ⟨e1, -, e2⟩ := Si.update_book L h trivial r.1 d
  have hc : (k.core.update ⟨some (ctr h.core), h.buf⟩ d).core = k.upd 0 (nFull k.kind k.bs (m.length + d.length)) := by
    rw [(rk.update K.core d).2.1]
    simp only [Count.Book.core, Option.bind_some, length_blocks, List.length_append]
  constructor
  · intro hs
    obtain ⟨n, hn⟩ := Option.isSome_iff_exists.1 (hc ▸ hs)
    rw [hn] at e2
    refine ⟨_, e2.1, c.update h d, rfl, r.update L d, ?_⟩
    have e : (⟨some (ctr (c.update h d).core), (c.update h d).buf⟩ : Hasher (Option (BitVec w))) = k.core.update ⟨some (ctr h.core), h.buf⟩ d := by
      rw [e2.2.1, e1, ← hn]
    rw [e]; exact rk.update K.core d
  · intro hs
    rw [← hc, Option.isSome_eq_false_iff, Option.isNone_iff_eq_none] at hs
    rw [hs] at e2
    exact e2

theorem RtHeld.finish (Si : Sim cc c k rep ctr fun _ => True) (L : c.Lawful inv) (K : k.Lawful) {x : τ × BlockBuffer} {m : Bytes}
    (H : RtHeld k c rep ctr x m) : cc.finalize x.1 x.2 = (k.core.finish (k.core.updates k.core.new [m])).map fun _ => c.digest m := by
  obtain ⟨h, rfl, r, rk⟩ := H
  rw [Si.fin h.core h.buf trivial r.1, ← r.finish L]
  have e := K.finish_rep rk
  have e' := K.finish [m]
  simp only [List.flatten_cons, List.flatten_nil, List.append_nil] at e'
  rw [e', ← e]
  rfl

theorem RtHeld.reset (L : c.Lawful inv) (K : k.Lawful) (ctr0 : ctr c.init = 0) {x : τ × BlockBuffer}
    {m : Bytes} (H : RtHeld k c rep ctr x m) : RtHeld k c rep ctr (rep c.init, x.2.reset) [] := by
  obtain ⟨h, rfl, r, rk⟩ := H
  refine ⟨⟨c.init, h.buf.reset⟩, rfl, ?_, ?_⟩
  · have := r.reset L
    rwa [Core.resetH, L.reset_eq _ (r.invariant L)] at this
  · have := rk.reset K.core
    have e : (⟨some (ctr c.init), h.buf.reset⟩ : Hasher (Option (BitVec w))) = k.core.resetH ⟨some (ctr h.core), h.buf⟩ := by
      show (⟨some (ctr c.init), h.buf.reset⟩ : Hasher (Option (BitVec w))) = ⟨some 0, h.buf.reset⟩
      rw [ctr0]
    rw [e]; exact this
end

/-- A family of hashers, one for each size, whose counters are kept by the same book. -/
theorem rt_sim {w : Nat} {σ τ : Type} {V : VarC τ} {H : Spec.RtHash} (c : Nat → Core σ Bytes) (k : Count.Book w) (rep : σ → τ) (ctr : σ → BitVec w)
    {inv : Nat → σ → Prop} (Si : ∀ n, H.ok n → Sim (V.core n) (c n) k rep ctr fun _ => True) (L : ∀ n, H.ok n → (c n).Lawful (inv n)) (K : k.Lawful)
    (ctr0 : ∀ n, H.ok n → ctr (c n).init = 0) (hnew : ∀ n, H.ok n → V.new n = some (some (rep (c n).init))) (bad : ∀ n, ¬ H.ok n → V.new n = some none)
    (hU : ∀ n, (k.upd 0 (nFull k.kind k.bs n)).isSome = true ↔ H.upd n)
    (hF : ∀ m : Bytes, (k.core.finish (k.core.updates k.core.new [m])).isSome = true ↔ H.fin m.length)
    (hh : ∀ n, H.ok n → ∀ m : Bytes, H.fin m.length → (c n).digest m = H.hash n m)
    (hreset : ∀ f, V.reset = some f → ∀ n, H.ok n → ∀ blks, f (rep ((c n).updateBlocks (c n).init blks)) = rep (c n).init) :
    RtSim V H fun n x m => H.ok n ∧ RtHeld k (c n) rep ctr x m where
  new := fun n hn => ⟨_, hnew n hn, hn, .new (Si n hn) (L n hn) K (ctr0 n hn)⟩
  bad := bad
  upd := by
    rintro n x m d ⟨hn, R⟩ hu
    obtain ⟨y, e, R'⟩ := (R.update (Si n hn) (L n hn) K d).1 ((hU _).2 hu)
    exact ⟨y, e, hn, R'⟩
  updBad := by
    rintro n x m d ⟨hn, R⟩ hu
    exact (R.update (Si n hn) (L n hn) K d).2 (Bool.eq_false_iff.2 fun h => hu ((hU _).1 h))
  fin := by
    rintro n x m ⟨hn, R⟩ hf
    obtain ⟨v, hv⟩ := Option.isSome_iff_exists.1 ((hF m).2 hf)
    rw [R.finish (Si n hn) (L n hn) K, hv, ← hh n hn m hf]
    rfl
  finBad := by
    rintro n x m ⟨hn, R⟩ hf
    have : (k.core.finish (k.core.updates k.core.new [m])) = none := by
      rw [← Option.not_isSome_iff_eq_none]; exact fun h => hf ((hF m).1 h)
    rw [R.finish (Si n hn) (L n hn) K, this]
    rfl
  reset := by
    rintro n x m f ⟨hn, R⟩ hf
    have e : f x.1 = rep (c n).init := by
      obtain ⟨h, rfl, r, -⟩ := R
      show f (rep h.core) = _
      rw [r.2.1]
      exact hreset f hf n hn _
    rw [e]
    exact ⟨hn, R.reset (L n hn) K (ctr0 n hn)⟩

/-- A type of hashers sized at run time and what it should do. -/
inductive RunTimeSized : {τ : Type} → VarC τ → Spec.RtHash → Prop
  | blake2b : RunTimeSized (Blake2.varC Blake2.cfgB) ⟨(· ≤ 64), fun n m => Spec.Blake2.hash Spec.Blake2.b n [] [] [] m, (· ≤ 2 ^ 64), (· < 2 ^ 64)⟩
  | blake2s : RunTimeSized (Blake2.varC Blake2.cfgS) ⟨(· ≤ 32), fun n m => Spec.Blake2.hash Spec.Blake2.s n [] [] [] m, (· ≤ 2 ^ 64), (· < 2 ^ 64)⟩
  | groestlShort : RunTimeSized (Groestl.varC Groestl.short)
      ⟨(· ≤ 32), Spec.Groestl.hash Spec.Groestl.p512, (· < 2 ^ 64 * 64), (· < (2 ^ 64 - 1) * 64 - 8)⟩
  | groestlLong : RunTimeSized (Groestl.varC Groestl.long)
      ⟨(· ≤ 64), Spec.Groestl.hash Spec.Groestl.p1024, (· < 2 ^ 64 * 128), (· < (2 ^ 64 - 1) * 128 - 8)⟩
  | kupynaShort : RunTimeSized (Kupyna.varC Kupyna.short)
      ⟨(· ≤ 32), Spec.Kupyna.hash Spec.Kupyna.p512 kupynaPi, (· < 2 ^ 64 * 64), (· < 2 ^ 64 * 64)⟩
  | kupynaLong : RunTimeSized (Kupyna.varC Kupyna.long)
      ⟨fun n => 32 ≤ n ∧ n ≤ 64, Spec.Kupyna.hash Spec.Kupyna.p1024 kupynaPi, (· < 2 ^ 64 * 128), (· < 2 ^ 64 * 128)⟩

theorem bump_cap {bs : Nat} (h0 : 0 < bs) (n : Nat) : (Count.bump 64 0 (nFull .eager bs n)).isSome = true ↔ n < 2 ^ 64 * bs := by
  rw [Count.bump_zero, ← Nat.div_lt_iff_lt_mul h0]
  show (if n / bs < 2 ^ 64 then _ else _ : Option _).isSome = true ↔ _
  split <;> simp_all

theorem Blake2.reset_foldl {w : Nat} (f : Blake2.State w → Bytes → Blake2.State w) (hf : ∀ s b, (f s b).h0 = s.h0) (blks : List Bytes) (s : Blake2.State w) :
    (blks.foldl f s).h0 = s.h0 := by
  induction blks generalizing s with
  | nil => rfl
  | cons b blks ih => rw [List.foldl_cons, ih, hf]

/-- The state that `new(N)` returns. -/
def Blake2.fresh {w : Nat} (c : Blake2.Cfg w) (N : Nat) : Blake2.State w :=
  (Blake2.newWithParams c [] [] 0 N).getD ⟨⟨c.iv0, c.iv1⟩, 0, ⟨c.iv0, c.iv1⟩⟩

theorem Blake2.fresh_eq {n : Nat} {c : Blake2.Cfg (8 * n)} {V : Spec.Blake2.Variant (8 * n)} (g : Blake2.Good n c V) {N : Nat} (hN : N ≤ 8 * n) :
    Blake2.newWithParams c [] [] 0 N = some (Blake2.fresh c N) ∧ (Blake2.fresh c N).t = 0 ∧ (Blake2.fresh c N).h0 = (Blake2.fresh c N).h := by
  rcases Blake2.params_eq g.h4 g.M g.hb g.head [] [] 0 N with ⟨h1, -⟩ | ⟨-, s, h2, ht, hh, -⟩
  · exact absurd ⟨Nat.zero_le _, hN, Nat.zero_le _, Nat.zero_le _⟩ h1
  · have e : Blake2.fresh c N = s := by rw [Blake2.fresh, h2]; rfl
    rw [e]; exact ⟨h2, ht, hh⟩

theorem Blake2.reset_fresh {w : Nat} {c : Blake2.Cfg w} {s : Blake2.State w} (ht : s.t = 0) (hh : s.h0 = s.h) (blks : List Bytes) :
    Blake2.reset (Blake2.updateBlocks c s blks) = s := by
  have e : (Blake2.updateBlocks c s blks).h0 = s.h0 := by
    rw [Blake2.updateBlocks]
    exact Blake2.reset_foldl _ (by intro _ _; rfl) blks s
  show (⟨(Blake2.updateBlocks c s blks).h0, 0, (Blake2.updateBlocks c s blks).h0⟩ : Blake2.State w) = s
  rw [e]
  obtain ⟨x, t, y⟩ := s
  cases ht
  cases hh
  rfl

theorem RunTimeSized.sim {τ : Type} {V : VarC τ} {H : Spec.RtHash} (h : RunTimeSized V H) : ∃ R, RtSim V H R := by
  have limit : ∀ {w : Nat} {k : Count.Book w} {limit : Nat} {value : Nat → Nat}, Counted k limit value → ∀ m : Bytes,
      (k.core.finish (k.core.updates k.core.new [m])).isSome = true ↔ m.length < limit := by
    intro w k limit value h m
    rw [C29_exact h [m], List.flatten_cons, List.flatten_nil, List.append_nil]
    split <;> simp_all
  cases h with
  | blake2b =>
    have F : ∀ n, n ≤ 64 → _ := fun n hn => Blake2.fresh_eq Blake2.goodB (N := n) hn
    refine ⟨_, rt_sim (inv := fun _ => _) (fun n => (Blake2.varCore Blake2.cfgB).ctWith n (Blake2.fresh Blake2.cfgB n)) (Count.blake2 128) id Blake2.State.t
      (fun n hn => Blake2.sim (c := Blake2.cfgB) (by decide) (.inl rfl) rfl rfl (by decide) _ _ hn) (fun n hn => Blake2.goodB.lawful.ct n _)
      (Count.lawful_perBlock (by decide)) (fun n hn => (F n hn).2.1) (fun n hn => ?_) (fun n hn => if_pos (Nat.not_le.1 hn))
      (perBlock_cap (by decide) (by decide)) (limit .blake2b) (fun n hn m hm => ?_) (fun f hf n hn blks => ?_)⟩
    · have e := (Blake2.newWithParamsC_eq (c := Blake2.cfgB) rfl (by decide) [] [] 0 n).trans (F n hn).1
      exact (if_neg (Nat.not_lt.2 hn)).trans (by rw [e]; rfl)
    · have := Blake2.hash_of_chunks Blake2.goodB (F n hn).1 [m] fun k hk => Blake2.countB (by
        have : m.length < 2 ^ 64 := hm
        simp only [List.flatten_cons, List.flatten_nil, List.append_nil] at hk; omega)
      simp only [List.flatten_cons, List.flatten_nil, List.append_nil] at this
      exact this
    · cases hf
      exact Blake2.reset_fresh (F n hn).2.1 (F n hn).2.2 blks
  | blake2s =>
    have F : ∀ n, n ≤ 32 → _ := fun n hn => Blake2.fresh_eq Blake2.goodS (N := n) hn
    refine ⟨_, rt_sim (inv := fun _ => _) (fun n => (Blake2.varCore Blake2.cfgS).ctWith n (Blake2.fresh Blake2.cfgS n)) (Count.blake2 64) id Blake2.State.t
      (fun n hn => Blake2.sim (c := Blake2.cfgS) (by decide) (.inr rfl) rfl rfl (by decide) _ _ hn) (fun n hn => Blake2.goodS.lawful.ct n _)
      (Count.lawful_perBlock (by decide)) (fun n hn => (F n hn).2.1) (fun n hn => ?_) (fun n hn => if_pos (Nat.not_le.1 hn))
      (perBlock_cap (by decide) (by decide)) (limit .blake2s) (fun n hn m hm => ?_) (fun f hf n hn blks => ?_)⟩
    · have e := (Blake2.newWithParamsC_eq (c := Blake2.cfgS) rfl (by decide) [] [] 0 n).trans (F n hn).1
      exact (if_neg (Nat.not_lt.2 hn)).trans (by rw [e]; rfl)
    · have := Blake2.hash_of_chunks Blake2.goodS (F n hn).1 [m] fun k _ => Blake2.countS k
      simp only [List.flatten_cons, List.flatten_nil, List.append_nil] at this
      exact this
    · cases hf
      exact Blake2.reset_fresh (F n hn).2.1 (F n hn).2.2 blks
  | groestlShort =>
    exact ⟨_, rt_sim (inv := fun _ => _) (fun n => (Groestl.varCore Groestl.short).ctWith n ⟨Groestl.init Groestl.short n, 0⟩) (Count.groestl 64)
      (fun s => (s.state.toList, s.blocksLen)) Groestl.State.blocksLen
      (fun n hn => Groestl.sim Groestl.indices_short (by decide) rfl _ hn) (fun n _ => (Groestl.lawful (by decide)).ct n _)
      (Count.lawful_bump (by decide)) (fun _ _ => rfl)
      (fun n hn => by
        have e : Groestl.new Groestl.short n = some ⟨Groestl.init Groestl.short n, 0⟩ := if_neg (Nat.not_lt.2 hn)
        show some (Option.map _ (Groestl.new Groestl.short n)) = _
        rw [e]; rfl)
      (fun n hn => by
        have e : Groestl.new Groestl.short n = none := if_pos (Nat.not_le.1 hn)
        show some (Option.map _ (Groestl.new Groestl.short n)) = _
        rw [e]; rfl)
      (bump_cap (by decide)) (limit (.groestl Groestl.short (.inl rfl)))
      (fun n hn m _ => Groestl.digest_eq Groestl.match_short (by decide) hn Groestl.count64 m) (fun _ hf => nomatch hf)⟩
  | groestlLong =>
    exact ⟨_, rt_sim (inv := fun _ => _) (fun n => (Groestl.varCore Groestl.long).ctWith n ⟨Groestl.init Groestl.long n, 0⟩) (Count.groestl 128)
      (fun s => (s.state.toList, s.blocksLen)) Groestl.State.blocksLen
      (fun n hn => Groestl.sim Groestl.indices_long (by decide) rfl _ hn) (fun n _ => (Groestl.lawful (by decide)).ct n _)
      (Count.lawful_bump (by decide)) (fun _ _ => rfl)
      (fun n hn => by
        have e : Groestl.new Groestl.long n = some ⟨Groestl.init Groestl.long n, 0⟩ := if_neg (Nat.not_lt.2 hn)
        show some (Option.map _ (Groestl.new Groestl.long n)) = _
        rw [e]; rfl)
      (fun n hn => by
        have e : Groestl.new Groestl.long n = none := if_pos (Nat.not_le.1 hn)
        show some (Option.map _ (Groestl.new Groestl.long n)) = _
        rw [e]; rfl)
      (bump_cap (by decide)) (limit (.groestl Groestl.long (.inr rfl)))
      (fun n hn m _ => Groestl.digest_eq Groestl.match_long (by decide) hn Groestl.count128 m) (fun _ hf => nomatch hf)⟩
  | kupynaShort =>
    exact ⟨_, rt_sim (inv := fun _ => _) (fun n => (Kupyna.varCore Kupyna.short).ctWith n (Kupyna.init Kupyna.short)) (Count.kupyna 64)
      (fun s => (s.state.toList, s.blocksLen)) Kupyna.State.blocksLen
      (fun n hn => Kupyna.sim (by decide) (by decide) (by decide) rfl hn) (fun n _ => (Kupyna.lawful (by decide)).ct n _)
      (Count.lawful_bump (by decide)) (fun _ _ => rfl)
      (fun n hn => by
        have e : Kupyna.new Kupyna.short n = some (Kupyna.init Kupyna.short) := if_neg fun h => h.elim (fun h => Nat.not_lt_zero _ h) (Nat.not_lt.2 hn)
        show some (Option.map _ (Kupyna.new Kupyna.short n)) = _
        rw [e]; rfl)
      (fun n hn => by
        have e : Kupyna.new Kupyna.short n = none := if_pos (.inr (Nat.not_le.1 hn))
        show some (Option.map _ (Kupyna.new Kupyna.short n)) = _
        rw [e]; rfl)
      (bump_cap (by decide)) (limit (.kupyna Kupyna.short (.inl rfl)))
      (fun n hn m hm => by
        obtain ⟨c, hc, h⟩ := C37_short n hn
        have := h [m] (by simp only [List.flatten_cons, List.flatten_nil, List.append_nil]; exact (Nat.div_lt_iff_lt_mul (by decide)).2 hm)
        simp only [List.flatten_cons, List.flatten_nil, List.append_nil] at this
        obtain ⟨_, s0, h0, rfl⟩ := VarCore.ct_inv hc
        have h0 : Kupyna.new Kupyna.short n = some s0 := h0
        have e : s0 = Kupyna.init Kupyna.short := by rw [Kupyna.new] at h0; split at h0 <;> cases h0; rfl
        subst e
        exact this) (fun _ hf => nomatch hf)⟩
  | kupynaLong =>
    exact ⟨_, rt_sim (inv := fun _ => _) (fun n => (Kupyna.varCore Kupyna.long).ctWith n (Kupyna.init Kupyna.long)) (Count.kupyna 128)
      (fun s => (s.state.toList, s.blocksLen)) Kupyna.State.blocksLen
      (fun n hn => Kupyna.sim (by decide) (by decide) (by decide) rfl hn.2) (fun n _ => (Kupyna.lawful (by decide)).ct n _)
      (Count.lawful_bump (by decide)) (fun _ _ => rfl)
      (fun n hn => by
        have e : Kupyna.new Kupyna.long n = some (Kupyna.init Kupyna.long) := if_neg fun h => h.elim (Nat.not_lt.2 hn.1) (Nat.not_lt.2 hn.2)
        show some (Option.map _ (Kupyna.new Kupyna.long n)) = _
        rw [e]; rfl)
      (fun n hn => by
        have e : Kupyna.new Kupyna.long n = none := if_pos (by
          show n < 32 ∨ 64 < n
          have : ¬ (32 ≤ n ∧ n ≤ 64) := hn
          omega)
        show some (Option.map _ (Kupyna.new Kupyna.long n)) = _
        rw [e]; rfl)
      (bump_cap (by decide)) (limit (.kupyna Kupyna.long (.inr rfl)))
      (fun n hn m hm => by
        obtain ⟨c, hc, h⟩ := C37_long n hn.1 hn.2
        have := h [m] (by simp only [List.flatten_cons, List.flatten_nil, List.append_nil]; exact (Nat.div_lt_iff_lt_mul (by decide)).2 hm)
        simp only [List.flatten_cons, List.flatten_nil, List.append_nil] at this
        obtain ⟨_, s0, h0, rfl⟩ := VarCore.ct_inv hc
        have h0 : Kupyna.new Kupyna.long n = some s0 := h0
        have e : s0 = Kupyna.init Kupyna.long := by rw [Kupyna.new] at h0; split at h0 <;> cases h0; rfl
        subst e
        exact this) (fun _ hf => nomatch hf)⟩

/-- C72. Any program of `new(size)`, `update`, `clone`, `finalize_variable` (and `reset`, `finalize_variable_reset` for BLAKE2) calls on any number of
hashers of a run-time-sized type, with any sizes and any output buffers: in a build with overflow checks it panics exactly when some `update`
leads to a message too long for the counter, or a finalization with a buffer of the right size meets a message too long to finalize. Otherwise it
sees errors for the sizes that do not exist and for buffers of the wrong size (which leave the hasher as it was, where it is not consumed),
and the standard's digests of exactly what each hasher was given since it was created or reset. -/
theorem C72_programs {τ : Type} {V : VarC τ} {H : Spec.RtHash} (h : RunTimeSized V H) (ops : List RtOp)
    (hr : V.reset.isSome = true ∨ ∀ op ∈ ops, op.usesReset = false) :
    V.run (fun _ => none) ops = H.run (fun _ => none) ops := by
  obtain ⟨R, S⟩ := h.sim
  exact S.run ops hr fun _ => trivial

/-- A program for the examples below. -/
theorem rt_trace (H : Spec.RtHash) (h33 : ¬ H.ok 33) (h20 : H.ok 20) (hu : ∀ n < 4, H.upd n) (hf : ∀ n < 4, H.fin n) : H.run (fun _ => none)
    [.new 0 33, .new 0 20, .update 0 [1, 2], .finalizeReset 0 32, .clone 0 1, .update 0 [3], .finalizeReset 0 20, .finalize 0 20, .finalize 1 20] =
    some [.invalidOutputSize, .created, .invalidBufferSize, .digest (H.hash 20 [1, 2, 3]), .digest (H.hash 20 []), .digest (H.hash 20 [1, 2])] := by
  simp [Spec.RtHash.run, Spec.RtHash.step, setAt, h33, h20, hu, hf]

/-- `Blake2sVar`: a size that does not exist, then a hasher of 20 bytes; a buffer of 32 bytes is refused and the hasher goes on; it is cloned,
finalized with reset, and finalized again. -/
example : (Blake2.varC Blake2.cfgS).run (fun _ => none)
    [.new 0 33, .new 0 20, .update 0 [1, 2], .finalizeReset 0 32, .clone 0 1, .update 0 [3], .finalizeReset 0 20, .finalize 0 20, .finalize 1 20] =
    some [.invalidOutputSize, .created, .invalidBufferSize, .digest (Spec.Blake2.hash Spec.Blake2.s 20 [] [] [] [1, 2, 3]),
      .digest (Spec.Blake2.hash Spec.Blake2.s 20 [] [] [] []), .digest (Spec.Blake2.hash Spec.Blake2.s 20 [] [] [] [1, 2])] :=
  (C72_programs .blake2s _ (.inl rfl)).trans (rt_trace _ (by decide) (by decide)
    (fun n h => by show n ≤ 2 ^ 64; omega) (fun n h => by show n < 2 ^ 64; omega))

theorem rt_long (H : Spec.RtHash) (m : Bytes) (h64 : H.ok 64) (hu : H.upd m.length) (hu' : ¬ H.upd (m.length + 1)) (hf : ¬ H.fin m.length) :
    H.run (fun _ => none) [.new 0 64, .update 0 m, .finalize 0 63] = some [.created, .invalidBufferSize] ∧
    H.run (fun _ => none) [.new 0 64, .update 0 m, .finalize 0 64] = none ∧
    H.run (fun _ => none) [.new 0 64, .update 0 m, .update 0 [0]] = none := by
  refine ⟨?_, ?_, ?_⟩ <;> simp [Spec.RtHash.run, Spec.RtHash.step, setAt, h64, hu, hu', hf]

/-- `Blake2bVar`: a message of `2^64` bytes panics only when a buffer of the right size is offered. -/
example (m : Bytes) (hm : m.length = 2 ^ 64) :
    (Blake2.varC Blake2.cfgB).run (fun _ => none) [.new 0 64, .update 0 m, .finalize 0 63] = some [.created, .invalidBufferSize] ∧
    (Blake2.varC Blake2.cfgB).run (fun _ => none) [.new 0 64, .update 0 m, .finalize 0 64] = none ∧
    (Blake2.varC Blake2.cfgB).run (fun _ => none) [.new 0 64, .update 0 m, .update 0 [0]] = none := by
  rw [C72_programs .blake2b _ (.inl rfl), C72_programs .blake2b _ (.inl rfl), C72_programs .blake2b _ (.inl rfl)]
  exact rt_long _ m (by decide) (by show m.length ≤ 2 ^ 64; omega) (by show ¬ m.length + 1 ≤ 2 ^ 64; omega) (by show ¬ m.length < 2 ^ 64; omega)

theorem rt_sized (H : Spec.RtHash) (h31 : ¬ H.ok 31) (h48 : H.ok 48) (hu : H.upd 1) (hf : H.fin 1) :
    H.run (fun _ => none) [.new 0 31, .new 0 48, .update 0 [7], .finalize 0 48] = some [.invalidOutputSize, .created, .digest (H.hash 48 [7])] := by
  simp [Spec.RtHash.run, Spec.RtHash.step, setAt, h31, h48, hu, hf]

/-- `KupynaLongVar` has no sizes below 32. -/
example : (Kupyna.varC Kupyna.long).run (fun _ => none) [.new 0 31, .new 0 48, .update 0 [7], .finalize 0 48] =
    some [.invalidOutputSize, .created, .digest (Spec.Kupyna.hash Spec.Kupyna.p1024 kupynaPi 48 [7])] := by
  have h := rt_sized ⟨fun n => 32 ≤ n ∧ n ≤ 64, Spec.Kupyna.hash Spec.Kupyna.p1024 kupynaPi, (· < 2 ^ 64 * 128), (· < 2 ^ 64 * 128)⟩
    (by show ¬ (32 ≤ 31 ∧ 31 ≤ 64); omega) (by show 32 ≤ 48 ∧ 48 ≤ 64; omega) (by show 1 < 2 ^ 64 * 128; omega) (by show 1 < 2 ^ 64 * 128; omega)
  rw [C72_programs .kupynaLong _ (.inr fun op h => by
    simp only [List.mem_cons, List.not_mem_nil, or_false] at h
    rcases h with rfl | rfl | rfl | rfl <;> rfl)]
  dsimp only at h
  rw [h]

end Hashes
