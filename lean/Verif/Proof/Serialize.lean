import Verif.Checked.Serialize
import Verif.Proof.Resume
/- `serialize` and `deserialize` with Rust's run-time checks equal the models. -/
namespace Hashes.Rs

theorem store_prefix {α β : Type} {k : Nat} {a : List α} {b : List β} {conv : α → List β} (hk : 0 < k) (hb : k * a.length ≤ b.length)
    (h : ∀ x, (conv x).length = k) : store b a k conv = some (a.flatMap conv ++ b.drop (k * a.length)) := by
  have hd : a.length ≤ b.length / k := by rw [Nat.le_div_iff_mul_le hk, Nat.mul_comm]; exact hb
  have key : ∀ (m : Nat) (i : Nat) (pre : List β) (r : List α) (c post : List β), r.length ≤ m → pre.length = k * i →
      k * r.length ≤ post.length →
      Option.map Prod.fst (((blocks k m c).zip r).foldlM (fun (s : List β × Nat) (p : List β × α) => do
        let b ← copy s.1 (k * s.2) (k * s.2 + k) (conv p.2)
        pure (b, s.2 + 1)) (pre ++ post, i)) = some (pre ++ r.flatMap conv ++ post.drop (k * r.length)) := by
    intro m
    induction m with
    | zero =>
      intro i pre r c post hr hp hc
      rw [List.length_eq_zero_iff.mp (Nat.le_zero.1 hr)]
      simp [blocks]
    | succ m ih =>
      intro i pre r c post hr hp hc
      cases r with
      | nil => simp
      | cons x r =>
        have hkm : k * (r.length + 1) = k * r.length + k := Nat.mul_succ _ _
        simp only [List.length_cons] at hr hc ⊢
        simp only [blocks, List.zip_cons_cons, List.foldlM_cons]
        rw [copy_le (by omega) (by simp; omega) (by rw [h]; omega)]
        have e1 : (pre ++ post).take (k * i) = pre := by rw [← hp]; simp
        have e2 : (pre ++ post).drop (k * i + k) = post.drop k := by
          rw [← hp, List.drop_append, List.drop_eq_nil_of_le (by omega), List.nil_append]
          congr 1; omega
        rw [e1, e2]
        have := ih (i + 1) (pre ++ conv x) r (c.drop k) (post.drop k) (by omega)
          (by rw [List.length_append, h, hp, Nat.mul_succ]) (by rw [List.length_drop]; omega)
        show Option.map Prod.fst (List.foldlM _ (pre ++ conv x ++ post.drop k, i + 1) _) = _
        rw [this]
        simp only [List.flatMap_cons, List.append_assoc, List.drop_drop]
        rw [show k + k * r.length = k * (r.length + 1) by omega]
  have := key (b.length / k) 0 [] a b b hd (by simp) hb
  rw [store, chunks]
  rw [List.nil_append] at this
  exact this

theorem split_eq {raw : Bytes} {n : Nat} (h : n ≤ raw.length) : split raw n = some (raw.take n, raw.drop n) := by
  rw [split, slice_le (Nat.zero_le _) h, slice_le h (Nat.le_refl _)]
  simp only [Option.bind_eq_bind, Option.bind_some, Option.pure_def, Nat.sub_zero, List.drop_zero]
  rw [List.take_of_length_le (l := raw.drop n) (by rw [List.length_drop]; exact Nat.le_refl _)]

theorem exactly_eq {n : Nat} {a : Bytes} (h : a.length = n) : exactly n a = some a := by
  rw [exactly, check_of h]; rfl

theorem fromLe_eq {w : Nat} {b : Bytes} (h : b.length = w / 8) : fromLe w b = some (BitVec.ofNat w (ofLE b)) := if_pos h

theorem serArr_eq {w n : Nat} {a : List (BitVec w)} (hw : 0 < w / 8) (hn : n = w / 8 * a.length) : serArr n a = some (bytesOfWordsLE a) :=
  store_eq hw rfl (by rw [List.length_replicate, hn]) fun _ => length_leBytes ..

theorem desArr_eq {w n : Nat} {part : Bytes} (hw : 0 < w / 8) (h : part.length = w / 8 * n) :
    desArr w n part = some ((List.range n).map (wordLE w part)) := load_le hw (List.length_replicate ..) h

theorem serWords_eq {w v size off : Nat} {words : List (BitVec w)} (ctr : BitVec v) (hw : 0 < w / 8) (ho : off = w / 8 * words.length)
    (hs : size = off + v / 8) : serWords size off words ctr = some (bytesOfWordsLE words ++ leBytes (v / 8) ctr.toNat) := by
  have hb : (bytesOfWordsLE words).length = off := by
    rw [length_bytesOfWordsLE, ho, Nat.mul_comm]
  rw [serWords, store_prefix hw (by rw [List.length_replicate]; omega) fun _ => length_leBytes ..]
  simp only [Option.bind_eq_bind, Option.bind_some]
  rw [show words.flatMap (fun x => leBytes (w / 8) x.toNat) = bytesOfWordsLE words from rfl, ← ho, List.drop_replicate]
  rw [copy_le (by simp; omega) (Nat.le_refl _) (by simp; omega), List.take_left' hb, List.drop_length, List.append_nil]

theorem wordLE_take {w off i : Nat} {raw : Bytes} (h : w / 8 * (i + 1) ≤ off) : wordLE w (raw.take off) i = wordLE w raw i := by
  rw [Nat.mul_succ] at h
  rw [wordLE, wordLE, List.drop_take, List.take_take, Nat.min_eq_left (by omega)]

theorem desWords_eq {w v off n : Nat} {raw : Bytes} (hw : 0 < w / 8) (ho : off = w / 8 * n) (hr : raw.length = off + v / 8) :
    desWords w v off n raw = some ((List.range n).map (wordLE w raw), BitVec.ofNat v (ofLE (raw.drop off))) := by
  rw [desWords, split_eq (by omega)]
  simp only [Option.bind_eq_bind, Option.bind_some]
  rw [load_le hw (List.length_replicate ..) (by rw [List.length_take, hr, ← ho]; omega), fromLe_eq (by rw [List.length_drop]; omega)]
  simp only [Option.bind_some]
  rw [List.map_congr_left fun i hi => wordLE_take (by rw [ho]; exact Nat.mul_le_mul_left _ (List.mem_range.1 hi))]
  rfl

end Hashes.Rs

namespace Hashes
open Rs

/-- What the checked `serialize` and `deserialize` of a core do, compared with the model. -/
structure Rs.SaveC.Faithful {σ τ : Type} (S : SaveC τ) (serialize : σ → Bytes) (deserialize : Bytes → Option σ) (serLen : Nat) (rep : σ → τ)
    (inv : σ → Prop) : Prop where
  size : S.size = serLen
  ser : ∀ s, inv s → S.ser (rep s) = some (serialize s)
  des : ∀ raw, raw.length = serLen → ∃ s, deserialize raw = some s ∧ inv s ∧ S.des raw = some (rep s)

theorem Sha1.saves : Sha1.saveC.Faithful Sha1.serialize Sha1.deserialize 28 (fun s => (s.h, s.blockLen)) (fun _ => True) where
  size := rfl
  ser := fun s _ => serWords_eq s.blockLen (by decide) rfl rfl
  des := fun raw hr => ⟨_, if_pos hr, trivial, bind_ok (desWords_eq (by decide) rfl hr) rfl⟩

theorem Sha256.saves : Sha256.saveC.Faithful Sha256.serialize Sha256.deserialize 40 (fun s => (s.state, s.blockLen)) (fun _ => True) where
  size := rfl
  ser := fun s _ => serWords_eq s.blockLen (by decide) rfl rfl
  des := fun raw hr => ⟨_, if_pos hr, trivial, bind_ok (desWords_eq (by decide) rfl hr) rfl⟩

theorem Sha512.saves : Sha512.saveC.Faithful Sha512.serialize Sha512.deserialize 80 (fun s => (s.state, s.blockLen)) (fun _ => True) where
  size := rfl
  ser := fun s _ => serWords_eq s.blockLen (by decide) rfl rfl
  des := fun raw hr => ⟨_, if_pos hr, trivial, bind_ok (desWords_eq (by decide) rfl hr) rfl⟩

theorem Sm3.saves : Sm3.saveC.Faithful Sm3.serialize Sm3.deserialize 40 (fun s => (s.h.toList, s.blockLen)) (fun _ => True) where
  size := rfl
  ser := fun s _ => serWords_eq s.blockLen (by decide) rfl rfl
  des := fun raw hr => ⟨_, if_pos hr, trivial, desWords_eq (by decide) rfl hr⟩

theorem Md4.saves : Md4.saveC.Faithful Md4.serialize Md4.deserialize 24 (fun s => (s.state, s.blockLen)) (fun _ => True) where
  size := rfl
  ser := fun s _ => serWords_eq s.blockLen (by decide) rfl rfl
  des := fun raw hr => ⟨_, if_pos hr, trivial, bind_ok (desWords_eq (by decide) rfl hr) rfl⟩

theorem Md5.saves : Md5.saveC.Faithful Md5.serialize Md5.deserialize 24 (fun s => (s.state, s.blockLen)) (fun _ => True) where
  size := rfl
  ser := fun s _ => serWords_eq s.blockLen (by decide) rfl rfl
  des := fun raw hr => ⟨_, if_pos hr, trivial, bind_ok (desWords_eq (by decide) rfl hr) rfl⟩

theorem Tiger.saves : Tiger.saveC.Faithful Tiger.serialize Tiger.deserialize 32 (fun s => (s.state.toList, s.blockLen)) (fun _ => True) where
  size := rfl
  ser := fun s _ => serWords_eq s.blockLen (by decide) rfl rfl
  des := fun raw hr => ⟨_, if_pos hr, trivial, desWords_eq (by decide) rfl hr⟩

theorem Ripemd.saves128 : (Ripemd.saveC Ripemd.C128.M 16 4).Faithful (Ripemd.serialize Ripemd.C128.M) (Ripemd.deserialize Ripemd.C128.M) 24 (fun s => (s.h, s.blockLen)) (fun _ => True) where
  size := rfl
  ser := fun s _ => serWords_eq s.blockLen (by decide) rfl rfl
  des := fun raw hr => ⟨_, if_pos hr, trivial, bind_ok (desWords_eq (by decide) rfl hr) rfl⟩

theorem Ripemd.saves160 : (Ripemd.saveC Ripemd.C160.M 20 5).Faithful (Ripemd.serialize Ripemd.C160.M) (Ripemd.deserialize Ripemd.C160.M) 28 (fun s => (s.h, s.blockLen)) (fun _ => True) where
  size := rfl
  ser := fun s _ => serWords_eq s.blockLen (by decide) rfl rfl
  des := fun raw hr => ⟨_, if_pos hr, trivial, bind_ok (desWords_eq (by decide) rfl hr) rfl⟩

theorem Ripemd.saves256 : (Ripemd.saveC Ripemd.C256.M 32 8).Faithful (Ripemd.serialize Ripemd.C256.M) (Ripemd.deserialize Ripemd.C256.M) 40 (fun s => (s.h, s.blockLen)) (fun _ => True) where
  size := rfl
  ser := fun s _ => serWords_eq s.blockLen (by decide) rfl rfl
  des := fun raw hr => ⟨_, if_pos hr, trivial, bind_ok (desWords_eq (by decide) rfl hr) rfl⟩

theorem Ripemd.saves320 : (Ripemd.saveC Ripemd.C320.M 40 10).Faithful (Ripemd.serialize Ripemd.C320.M) (Ripemd.deserialize Ripemd.C320.M) 48 (fun s => (s.h, s.blockLen)) (fun _ => True) where
  size := rfl
  ser := fun s _ => serWords_eq s.blockLen (by decide) rfl rfl
  des := fun raw hr => ⟨_, if_pos hr, trivial, bind_ok (desWords_eq (by decide) rfl hr) rfl⟩

theorem Groestl.saves (n : Nat) :
    (Groestl.saveC (8 * n + 8) (8 * n) n).Faithful Groestl.serialize (Groestl.deserialize n) (8 * n + 8) (fun s => (s.state.toList, s.blocksLen))
      (fun _ => True) where
  size := rfl
  ser := fun s _ => serWords_eq s.blocksLen (by decide) (by rw [Arr.length_toList]) rfl
  des := fun raw hr => ⟨_, if_pos hr, trivial, desWords_eq (by decide) rfl hr⟩

theorem Kupyna.saves (n : Nat) :
    (Kupyna.saveC (8 * n + 8) (8 * n) n).Faithful Kupyna.serialize (Kupyna.deserialize n) (8 * n + 8) (fun s => (s.state.toList, s.blocksLen))
      (fun _ => True) := by
  refine ⟨rfl, fun s _ => ?_, fun raw hr => ⟨_, if_pos hr, trivial, ?_⟩⟩
  · refine bind_ok (split_eq (by simp)) ?_
    refine bind_ok (v := bytesOfWordsLE s.state.toList) ?_ (bind_ok (v := leBytes 8 s.blocksLen.toNat) ?_ rfl)
    · refine bind_ok (check_of (by simp)) (store_eq (n := n) (by decide) (Arr.length_toList _) (by simp) fun _ => length_leBytes ..)
    · exact copy_all (by simp)
  · have hr : raw.length = 8 * n + 8 := hr
    refine bind_ok (split_eq (by omega)) (bind_ok (v := (List.range n).map (wordLE 64 raw)) ?_
      (bind_ok (fromLe_eq (by rw [List.length_drop]; omega)) rfl))
    have hl : (raw.take (8 * n)).length = 8 * n := by rw [List.length_take]; omega
    refine bind_ok (check_of hl) ((load_le (w := 64) (by decide) (List.length_replicate ..) hl).trans ?_)
    rw [List.map_congr_left fun i hi => wordLE_take (w := 64) (Nat.mul_le_mul_left 8 (List.mem_range.1 hi))]

theorem Md2.saves : Md2.saveC.Faithful Md2.serialize Md2.deserialize 64 id Md2.Shape where
  size := rfl
  ser := fun s hs => bind_ok (exactly_eq hs.1) (bind_ok (exactly_eq hs.2) rfl)
  des := fun raw hr => by
    have hr : raw.length = 64 := hr
    refine ⟨_, if_pos hr, Md2.shape_load (if_pos hr), bind_ok (split_eq (by omega)) (bind_ok (exactly_eq ?_) (bind_ok (exactly_eq ?_) rfl))⟩
    · rw [List.length_take]; omega
    · rw [List.length_drop]; omega

theorem Gost94.saves : Gost94.saveC.Faithful Gost94.serialize Gost94.deserialize 96 State.toC Gost94.Shape where
  size := rfl
  ser := fun s hs => bind_ok (exactly_eq hs) (bind_ok (serArr_eq (by decide) rfl) (bind_ok (serArr_eq (by decide) rfl) rfl))
  des := fun raw hr => by
    have hr : raw.length = 96 := hr
    refine ⟨_, if_pos hr, Gost94.shape_load (if_pos hr), bind_ok (split_eq (by omega)) (bind_ok (split_eq (by rw [List.length_drop]; omega))
      (bind_ok (desArr_eq (by decide) (by simp only [List.length_take, List.length_drop]; omega))
      (bind_ok (desArr_eq (by decide) (by simp only [List.length_drop]; omega)) (bind_ok (exactly_eq (by rw [List.length_take]; omega)) ?_))))⟩
    rw [List.drop_drop]; rfl

theorem Streebog.saves :
    Streebog.saveC.Faithful Streebog.serialize Streebog.deserialize 192 (fun s => (s.h.toList, s.n.toList, s.sigma.toList)) (fun _ => True) := by
  have to' (v : V8 W64) : Streebog.toBytesC v.toList = some (Streebog.toBytes v) := store_eq (n := 8) (by decide) rfl rfl fun _ => length_leBytes ..
  have from' (b : Bytes) (hb : b.length = 64) : Streebog.fromBytesC b = some (Streebog.fromBytes b).toList :=
    load_le (w := 64) (n := 8) (by decide) rfl hb
  refine ⟨rfl, fun s _ => bind_ok (to' _) (bind_ok (to' _) (bind_ok (to' _) rfl)), fun raw hr => ?_⟩
  have hr : raw.length = 192 := hr
  have l1 : (raw.take 64).length = 64 := by rw [List.length_take]; omega
  have l2 : ((raw.drop 64).take 64).length = 64 := by simp only [List.length_take, List.length_drop]; omega
  have l3 : ((raw.drop 64).drop 64).length = 64 := by simp only [List.length_drop]; omega
  refine ⟨_, if_pos hr, trivial, bind_ok (split_eq (by omega)) (bind_ok (split_eq (by rw [List.length_drop]; omega))
    (bind_ok (exactly_eq l1) (bind_ok (from' _ l1) (bind_ok (exactly_eq l2) (bind_ok (from' _ l2) (bind_ok (exactly_eq l3)
    (bind_ok (from' _ l3) ?_)))))))⟩
  rw [List.drop_drop]; rfl

theorem Shabal.saves :
    Shabal.saveC.Faithful Shabal.serialize Shabal.deserialize 184 Shabal.State.toC (fun _ => True) := by
  refine ⟨rfl, fun s _ => bind_ok (serArr_eq (by decide) (by rw [show s.toC.a = s.a.toList from rfl, Arr.length_toList]))
    (bind_ok (serArr_eq (by decide) (by rw [show s.toC.b = s.b.toList from rfl, Arr.length_toList]))
    (bind_ok (serArr_eq (by decide) (by rw [show s.toC.c = s.c.toList from rfl, Arr.length_toList]))
    (bind_ok (copy_all (a := List.replicate 8 0) (by simp)) rfl))), fun raw hr => ?_⟩
  have hr : raw.length = 184 := hr
  refine ⟨_, if_pos hr, trivial, bind_ok (split_eq (by omega)) (bind_ok (desArr_eq (by decide) (by simp only [List.length_take]; omega))
    (bind_ok (split_eq (by rw [List.length_drop]; omega)) (bind_ok (desArr_eq (by decide) (by simp only [List.length_take, List.length_drop]; omega))
    (bind_ok (split_eq (by simp only [List.length_drop]; omega)) (bind_ok (desArr_eq (by decide) (by simp only [List.length_take, List.length_drop]; omega))
    (bind_ok (fromLe_eq (by simp only [List.length_drop]; omega)) ?_))))))⟩
  simp only [List.drop_drop]; rfl

theorem Whirlpool.saves : Whirlpool.saveC.Faithful Whirlpool.serialize Whirlpool.deserialize 96 (fun s => (s.state.toList, s.bitLen.toList)) (fun _ => True) where
  size := rfl
  ser := fun s _ => bind_ok (serArr_eq (by decide) rfl) (bind_ok (serArr_eq (by decide) rfl) rfl)
  des := fun raw hr => by
    have hr : raw.length = 96 := hr
    refine ⟨_, if_pos hr, trivial, bind_ok (split_eq (by omega)) (bind_ok (desArr_eq (by decide) (by rw [List.length_take]; omega))
      (bind_ok (desArr_eq (by decide) (by rw [List.length_drop]; omega)) ?_))⟩
    have e : (List.range 8).map (wordLE 64 (raw.take 64)) = (List.range 8).map (wordLE 64 raw) :=
      List.map_congr_left fun i hi => wordLE_take (Nat.mul_le_mul_left 8 (List.mem_range.1 hi))
    rw [e]; rfl

theorem Sha3.saves : Sha3.saveC.Faithful Sha3.serialize Sha3.deserialize 200 id (fun s => s.length = 25) where
  size := rfl
  ser := fun s hs => by
    have hs : s.length = 25 := hs
    have e : serArr 200 s = some (bytesOfWordsLE s) := serArr_eq (by decide) (by omega)
    simpa only [Sha3.saveC, id, Sha3.serialize] using e
  des := fun raw hr => by
    refine ⟨(List.range 25).map (wordLE 64 raw), ?_, ?_, ?_⟩
    · rw [Sha3.deserialize, if_pos hr]
    · simp
    · exact desArr_eq (w := 64) (by decide) (by omega)

theorem Fsb.saves {P : Fsb.Params} {n : Nat} (hn : n = P.r / 8) :
    (Fsb.saveC P n).Faithful Fsb.serialize (Fsb.deserialize P) (P.r / 8 + 8) (fun s => (s.state.getD [], s.blocksLen)) (Fsb.Ok P) := by
  subst hn
  refine ⟨rfl, fun s ⟨H, hs, hl⟩ => ?_, fun raw hr => ?_⟩
  · show _ = some (s.state.getD [] ++ leBytes 8 s.blocksLen.toNat)
    simp only [hs, Option.getD_some]
    refine bind_ok (copy_le (Nat.zero_le _) (by rw [List.length_replicate]; show H.length ≤ _; omega) rfl) ?_
    rw [List.take_zero, List.nil_append, List.drop_replicate, copy_le (by simp) (Nat.le_refl _) (by simp; omega), List.take_left' rfl,
      List.drop_length, List.append_nil]
  · have hr : raw.length = P.r / 8 + 8 := hr
    refine ⟨_, if_pos hr, Fsb.ok_load (if_pos hr), bind_ok (split_eq (by omega)) (bind_ok (v := raw.take (P.r / 8)) ?_
      (bind_ok (fromLe_eq (by rw [List.length_drop]; omega)) rfl))⟩
    have := copy_all (a := List.replicate (P.r / 8) (0 : Byte)) (v := raw.take (P.r / 8)) (by rw [List.length_take, List.length_replicate]; omega)
    rwa [List.length_replicate] at this

/-- The same for the core inside `CoreWrapper`. -/
structure Rs.WrapC.Faithful {σ τ ω : Type} (S : WrapC τ) (c : Core σ ω) (rep : σ → τ) (inv : σ → Prop) : Prop where
  size : S.size = c.serLen
  ser : ∀ s, inv s → S.ser (rep s) = some (c.serialize s)
  des : ∀ raw, raw.length = c.serLen → S.des raw = some ((c.deserialize raw).map rep) ∧ ∀ s, c.deserialize raw = some s → inv s

theorem Rs.SaveC.Faithful.plain {σ τ ω : Type} {S : SaveC τ} {c : Core σ ω} {rep : σ → τ} {inv : σ → Prop}
    (F : S.Faithful c.serialize c.deserialize c.serLen rep inv) : S.plain.Faithful c rep inv where
  size := F.size
  ser := F.ser
  des := fun raw hr => by
    obtain ⟨s, h1, h2, h3⟩ := F.des raw hr
    refine ⟨bind_ok h3 (by rw [h1]; rfl), fun s' hs => ?_⟩
    rw [h1] at hs
    exact Option.some.inj hs ▸ h2

theorem Rs.SaveC.Faithful.ct {σ τ : Type} {S : SaveC τ} {v : VarCore σ} {rep : σ → τ} (F : S.Faithful v.serialize v.deserialize v.serLen rep fun _ => True)
    (L : v.SerLawful) (n : Nat) (s0 : σ) : (S.ct n).Faithful (v.ctWith n s0) rep (fun _ => True) where
  size := congrArg (· + 1) F.size
  ser := fun s _ => bind_ok (F.ser s trivial) (bind_ok (exactly_eq ((L.len s).trans F.size.symm)) rfl)
  des := fun raw hr => by
    have hr : raw.length = v.serLen + 1 := hr
    refine ⟨?_, fun _ _ => trivial⟩
    refine bind_ok (split_eq (by rw [F.size]; omega)) ?_
    rw [F.size]
    obtain ⟨o, ho⟩ := List.length_eq_one_iff.1 (show (raw.drop v.serLen).length = 1 by rw [List.length_drop]; omega)
    obtain ⟨s, h1, -, h3⟩ := F.des (raw.take v.serLen) (by rw [List.length_take]; omega)
    show (idx (raw.drop v.serLen) 0).bind _ = some (Option.map rep (match raw.drop v.serLen with
      | [o] => if o ≠ BitVec.ofNat 8 n then none else v.deserialize (raw.take v.serLen)
      | _ => none))
    rw [ho]
    show (if o ≠ BitVec.ofNat 8 n then _ else _) = some (Option.map rep (if o ≠ BitVec.ofNat 8 n then none else _))
    split
    · rfl
    · rw [h1]; exact bind_ok h3 rfl

end Hashes
