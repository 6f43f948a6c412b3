import Verif.Model.Drop
import Verif.Proof.Blake2
import Verif.Proof.Sha1Checked
/- C48: what remains in memory after a hasher, reader or MAC is dropped. -/
namespace Hashes

/-- Every cell of a value is zero. -/
def Spec.blank {α : Type} [Mem α] (x : α) : Prop := ∀ field ∈ cells x, ∀ v ∈ field, v = 0

/-- The core and reader-core types whose `Drop` leaves nothing. -/
inductive Wiped : (σ : Type) → Droppable σ → Prop
  | sha256 : Wiped Sha256.State inferInstance
  | sha512 : Wiped Sha512.State inferInstance
  | sha1 : Wiped Sha1.State inferInstance
  | md2 : Wiped Md2.State inferInstance
  | md4 : Wiped Md4.State inferInstance
  | md5 : Wiped Md5.State inferInstance
  | ripemd128 : Wiped (Ripemd.State (V4 W32)) inferInstance
  | ripemd160 : Wiped (Ripemd.State (V5 W32)) inferInstance
  | ripemd256 : Wiped (Ripemd.State (V2 (V4 W32))) inferInstance
  | ripemd320 : Wiped (Ripemd.State (V2 (V5 W32))) inferInstance
  | sm3 : Wiped Sm3.State inferInstance
  | keccak : Wiped Sha3.Lanes inferInstance
  | turbo : Wiped Sha3.Turbo inferInstance
  | cshake : Wiped Sha3.CShake inferInstance
  | tiger : Wiped Tiger.State inferInstance
  | whirlpool : Wiped Whirlpool.State inferInstance
  | groestl (n : Nat) : Wiped (Groestl.State n) inferInstance
  | kupyna (n : Nat) : Wiped (Kupyna.State n) inferInstance
  | streebog : Wiped Streebog.State inferInstance
  | gost94 : Wiped Gost94.State inferInstance
  | jh : Wiped Jh.State inferInstance
  | shabal : Wiped Shabal.State inferInstance
  | belt : Wiped Belt.State inferInstance
  | skein (n : Nat) : Wiped (Skein.State n) inferInstance
  | fsb : Wiped Fsb.State inferInstance

/-! Blankness of zeroized values. -/
section
open Spec
theorem blank_bv {w : Nat} (x : BitVec w) : blank (zeroize x) := by simp [blank, cells, zeroize]
theorem blank_nat (x : Nat) : blank (zeroize x) := by simp [blank, cells, zeroize]
theorem blank_list {w : Nat} (x : List (BitVec w)) : blank (zeroize x) := by
  intro f hf v hv
  simp only [cells, zeroize, List.map_replicate, List.mem_singleton] at hf
  subst hf
  simpa using (List.mem_replicate.mp hv).2
theorem blank_arr {w n : Nat} (x : Arr w n) : blank (zeroize x) := by
  intro f hf v hv
  simp only [cells, zeroize, List.map_replicate, List.mem_singleton] at hf
  subst hf
  simpa using (List.mem_replicate.mp hv).2

theorem blank_append {a b : List (List Nat)} (ha : ∀ f ∈ a, ∀ v ∈ f, v = 0) (hb : ∀ f ∈ b, ∀ v ∈ f, v = 0) :
    ∀ f ∈ a ++ b, ∀ v ∈ f, v = 0 := by
  intro f hf
  rcases List.mem_append.mp hf with h | h
  · exact ha f h
  · exact hb f h

theorem blank_v2 {α : Type} [Mem α] [Zeroize α] (h : ∀ x : α, blank (zeroize x)) (v : V2 α) : blank (zeroize v) :=
  blank_append (h _) (h _)
theorem blank_v3 (v : Tiger.V3) : blank (zeroize v) :=
  blank_append (blank_append (blank_bv _) (blank_bv _)) (blank_bv _)
theorem blank_v4 {α : Type} [Mem α] [Zeroize α] (h : ∀ x : α, blank (zeroize x)) (v : V4 α) : blank (zeroize v) :=
  blank_append (blank_append (blank_append (h _) (h _)) (h _)) (h _)
theorem blank_v5 {α : Type} [Mem α] [Zeroize α] (h : ∀ x : α, blank (zeroize x)) (v : V5 α) : blank (zeroize v) :=
  blank_append (blank_append (blank_append (blank_append (h _) (h _)) (h _)) (h _)) (h _)
theorem blank_v8 {α : Type} [Mem α] [Zeroize α] (h : ∀ x : α, blank (zeroize x)) (v : V8 α) : blank (zeroize v) :=
  blank_append (blank_append (blank_append (blank_append (blank_append (blank_append (blank_append (h _) (h _)) (h _)) (h _))
    (h _)) (h _)) (h _)) (h _)
theorem blank_buffer (b : BlockBuffer) : blank (zeroize b) := blank_append (blank_nat _) (blank_list _)

theorem Wiped.core {σ : Type} {d : Droppable σ} (h : Wiped σ d) (s : σ) : blank (Droppable.drop s) := by
  cases h with
  | sha256 => exact blank_append (blank_v8 blank_bv _) (blank_bv _)
  | sha512 => exact blank_append (blank_v8 blank_bv _) (blank_bv _)
  | sha1 => exact blank_append (blank_v5 blank_bv _) (blank_bv _)
  | md2 => exact blank_append (blank_list _) (blank_list _)
  | md4 => exact blank_append (blank_bv _) (blank_v4 blank_bv _)
  | md5 => exact blank_append (blank_bv _) (blank_v4 blank_bv _)
  | ripemd128 => exact blank_append (blank_v4 blank_bv _) (blank_bv _)
  | ripemd160 => exact blank_append (blank_v5 blank_bv _) (blank_bv _)
  | ripemd256 => exact blank_append (blank_v2 (blank_v4 blank_bv) _) (blank_bv _)
  | ripemd320 => exact blank_append (blank_v2 (blank_v5 blank_bv) _) (blank_bv _)
  | sm3 => exact blank_append (blank_bv _) (blank_v8 blank_bv _)
  | keccak => exact blank_list _
  | turbo => exact blank_append (blank_list _) (blank_bv _)
  | cshake => exact blank_append (blank_append (blank_bv _) (blank_list _)) (blank_list _)
  | tiger => exact blank_append (blank_bv _) (blank_v3 _)
  | whirlpool => exact blank_append (blank_v4 blank_bv _) (blank_v8 blank_bv _)
  | groestl n => exact blank_append (blank_arr _) (blank_bv _)
  | kupyna n => exact blank_append (blank_arr _) (blank_bv _)
  | streebog => exact blank_append (blank_append (blank_v8 blank_bv _) (blank_v8 blank_bv _)) (blank_v8 blank_bv _)
  | gost94 => exact blank_append (blank_append (blank_list _) (blank_v4 blank_bv _)) (blank_v4 blank_bv _)
  | jh => exact blank_append (blank_v8 blank_bv _) (blank_bv _)
  | shabal => exact blank_append (blank_append (blank_append (blank_arr _) (blank_arr _)) (blank_arr _)) (blank_bv _)
  | belt => exact blank_append (blank_append (blank_bv _) (blank_v4 blank_bv _)) (blank_v8 blank_bv _)
  | skein n => exact blank_append (blank_append (blank_bv _) (blank_bv _)) (blank_arr _)
  | fsb =>
    obtain ⟨b, _ | l⟩ := s
    · exact blank_append (blank_bv _) (by simp [Droppable.drop])
    · exact blank_append (blank_bv _) (blank_list _)
end

/-- C48. Hashers over the listed cores: after drop every cell of the hasher (buffer, cursor, all core fields) is zero,
whatever its state.  Missing for the full claim: BLAKE2 MAC and sha1-checked, where it is false (`C48_mac_violated`,
`C48_sha1Checked_violated`), and Ascon, whose state type and its drop glue live in the external crate `ascon`. -/
theorem C48_hasher_partial {σ : Type} {d : Droppable σ} (h : Wiped σ d) (x : Hasher σ) : Spec.blank (Droppable.drop x) :=
  blank_append (blank_buffer _) (h.core _)

/-- C48. Likewise for XOF readers. -/
theorem C48_reader_partial {σ : Type} {d : Droppable σ} (h : Wiped σ d) (x : Reader σ) : Spec.blank (Droppable.drop x) :=
  blank_append (blank_append (blank_nat _) (blank_list _)) (h.core _)

/-- C48. KangarooTwelve: all cells but the borrowed customization string, including both nested TurboSHAKE hashers. -/
theorem C48_k12_partial (x : Hasher K12.State) : Spec.blank (Droppable.drop x) :=
  blank_append (blank_buffer _) (blank_append (blank_append (blank_append (blank_append (blank_list _) (blank_nat _))
    (blank_nat _)) (C48_hasher_partial .turbo _)) (C48_hasher_partial .turbo _))

/-! The cells determine the value, so `blank` overlooks no field. -/
section
/-- Equal cells mean equal values, and the number of fields is fixed. -/
structure Faithful (α : Type) [Mem α] : Prop where
  inj : ∀ {x y : α}, cells x = cells y → x = y
  len : ∀ x y : α, (cells x).length = (cells y).length

theorem map_toNat_inj {w : Nat} {a b : List (BitVec w)} (h : a.map BitVec.toNat = b.map BitVec.toNat) : a = b := by
  induction a generalizing b with
  | nil => cases b <;> simp_all
  | cons x a ih =>
    cases b with
    | nil => simp at h
    | cons y b =>
      simp only [List.map_cons, List.cons.injEq] at h
      rw [BitVec.eq_of_toNat_eq h.1, ih h.2]

theorem faithful_bv {w : Nat} : Faithful (BitVec w) where
  inj h := by
    simp only [cells, List.cons.injEq, and_true] at h
    exact BitVec.eq_of_toNat_eq h
  len _ _ := rfl
theorem faithful_list {w : Nat} : Faithful (List (BitVec w)) where
  inj h := by
    simp only [cells, List.cons.injEq, and_true] at h
    exact map_toNat_inj h
  len _ _ := rfl
theorem faithful_arr {w n : Nat} : Faithful (Arr w n) where
  inj h := by
    simp only [cells, List.cons.injEq, and_true] at h
    exact Subtype.ext (map_toNat_inj h)
  len _ _ := rfl

variable {α : Type} [Mem α]
theorem Faithful.split (f : Faithful α) {x y : α} {a b : List (List Nat)} (h : cells x ++ a = cells y ++ b) :
    x = y ∧ a = b :=
  have h := List.append_inj h (f.len x y)
  ⟨f.inj h.1, h.2⟩

theorem faithful_v2 (f : Faithful α) : Faithful (V2 α) where
  inj {x y} h := by
    obtain ⟨h0, h⟩ := f.split (show cells x.x0 ++ cells x.x1 = cells y.x0 ++ cells y.x1 from h)
    exact V2.ext h0 (f.inj h)
  len x y := by simp [cells, f.len x.x0 y.x0, f.len x.x1 y.x1]
theorem faithful_v3 : Faithful Tiger.V3 where
  inj {x y} h := by
    simp only [cells, List.cons_append, List.nil_append, List.cons.injEq, and_true] at h
    exact Tiger.V3.ext (BitVec.eq_of_toNat_eq h.1) (BitVec.eq_of_toNat_eq h.2.1) (BitVec.eq_of_toNat_eq h.2.2)
  len x y := rfl
theorem faithful_v4 (f : Faithful α) : Faithful (V4 α) where
  inj {x y} h := by
    simp only [cells, List.append_assoc] at h
    obtain ⟨h0, h⟩ := f.split h
    obtain ⟨h1, h⟩ := f.split h
    obtain ⟨h2, h⟩ := f.split h
    exact V4.ext h0 h1 h2 (f.inj h)
  len x y := by simp [cells, f.len x.x0 y.x0, f.len x.x1 y.x1, f.len x.x2 y.x2, f.len x.x3 y.x3]
theorem faithful_v5 (f : Faithful α) : Faithful (V5 α) where
  inj {x y} h := by
    simp only [cells, List.append_assoc] at h
    obtain ⟨h0, h⟩ := f.split h
    obtain ⟨h1, h⟩ := f.split h
    obtain ⟨h2, h⟩ := f.split h
    obtain ⟨h3, h⟩ := f.split h
    exact V5.ext h0 h1 h2 h3 (f.inj h)
  len x y := by
    simp [cells, f.len x.x0 y.x0, f.len x.x1 y.x1, f.len x.x2 y.x2, f.len x.x3 y.x3, f.len x.x4 y.x4]
theorem faithful_v8 (f : Faithful α) : Faithful (V8 α) where
  inj {x y} h := by
    simp only [cells, List.append_assoc] at h
    obtain ⟨h0, h⟩ := f.split h
    obtain ⟨h1, h⟩ := f.split h
    obtain ⟨h2, h⟩ := f.split h
    obtain ⟨h3, h⟩ := f.split h
    obtain ⟨h4, h⟩ := f.split h
    obtain ⟨h5, h⟩ := f.split h
    obtain ⟨h6, h⟩ := f.split h
    exact V8.ext h0 h1 h2 h3 h4 h5 h6 (f.inj h)
  len x y := by
    simp [cells, f.len x.x0 y.x0, f.len x.x1 y.x1, f.len x.x2 y.x2, f.len x.x3 y.x3, f.len x.x4 y.x4, f.len x.x5 y.x5,
      f.len x.x6 y.x6, f.len x.x7 y.x7]
end

/-- C48. The cells of a listed core determine it: no field is left out of the count. -/
theorem C48_cells {σ : Type} {d : Droppable σ} (h : Wiped σ d) {x y : σ} (e : cells x = cells y) : x = y := by
  have b {w : Nat} : Faithful (BitVec w) := faithful_bv
  cases h with
  | sha256 => obtain ⟨h0, h1⟩ := (faithful_v8 b).split e; exact Sha256.State.ext h0 (b.inj h1)
  | sha512 => obtain ⟨h0, h1⟩ := (faithful_v8 b).split e; exact Sha512.State.ext h0 (b.inj h1)
  | sha1 => obtain ⟨h0, h1⟩ := (faithful_v5 b).split e; exact Sha1.State.ext h0 (b.inj h1)
  | md2 => obtain ⟨h0, h1⟩ := faithful_list.split e; exact Md2.State.ext h0 (faithful_list.inj h1)
  | md4 => obtain ⟨h0, h1⟩ := b.split e; exact Md4.State.ext h0 ((faithful_v4 b).inj h1)
  | md5 => obtain ⟨h0, h1⟩ := b.split e; exact Md5.State.ext h0 ((faithful_v4 b).inj h1)
  | ripemd128 => obtain ⟨h0, h1⟩ := (faithful_v4 b).split e; cases x; cases y; cases h0; cases b.inj h1; rfl
  | ripemd160 => obtain ⟨h0, h1⟩ := (faithful_v5 b).split e; cases x; cases y; cases h0; cases b.inj h1; rfl
  | ripemd256 => obtain ⟨h0, h1⟩ := (faithful_v2 (faithful_v4 b)).split e; cases x; cases y; cases h0; cases b.inj h1; rfl
  | ripemd320 => obtain ⟨h0, h1⟩ := (faithful_v2 (faithful_v5 b)).split e; cases x; cases y; cases h0; cases b.inj h1; rfl
  | sm3 => obtain ⟨h0, h1⟩ := b.split e; exact Sm3.State.ext h0 ((faithful_v8 b).inj h1)
  | keccak => exact faithful_list.inj e
  | turbo => obtain ⟨h0, h1⟩ := faithful_list.split e; exact Sha3.Turbo.ext h0 (b.inj h1)
  | cshake =>
    simp only [cells, List.append_assoc] at e
    obtain ⟨h0, e⟩ := b.split e
    obtain ⟨h1, e⟩ := faithful_list.split e
    exact Sha3.CShake.ext (faithful_list.inj e) h1 h0
  | tiger => obtain ⟨h0, h1⟩ := b.split e; exact Tiger.State.ext h0 (faithful_v3.inj h1)
  | whirlpool => obtain ⟨h0, h1⟩ := (faithful_v4 b).split e; exact Whirlpool.State.ext h0 ((faithful_v8 b).inj h1)
  | groestl n => obtain ⟨h0, h1⟩ := faithful_arr.split e; exact Groestl.State.ext h0 (b.inj h1)
  | kupyna n => obtain ⟨h0, h1⟩ := faithful_arr.split e; exact Kupyna.State.ext h0 (b.inj h1)
  | streebog =>
    simp only [cells, List.append_assoc] at e
    obtain ⟨h0, e⟩ := (faithful_v8 b).split e
    obtain ⟨h1, e⟩ := (faithful_v8 b).split e
    exact Streebog.State.ext h0 h1 ((faithful_v8 b).inj e)
  | gost94 =>
    simp only [cells, List.append_assoc] at e
    obtain ⟨h0, e⟩ := faithful_list.split e
    obtain ⟨h1, e⟩ := (faithful_v4 b).split e
    exact Gost94.State.ext h0 h1 ((faithful_v4 b).inj e)
  | jh => obtain ⟨h0, h1⟩ := (faithful_v8 b).split e; exact Jh.State.ext h0 (b.inj h1)
  | shabal =>
    simp only [cells, List.append_assoc] at e
    obtain ⟨h0, e⟩ := faithful_arr.split e
    obtain ⟨h1, e⟩ := faithful_arr.split e
    obtain ⟨h2, e⟩ := faithful_arr.split e
    cases x; cases y; cases h0; cases h1; cases h2; cases b.inj e; rfl
  | belt =>
    simp only [cells, List.append_assoc] at e
    obtain ⟨h0, e⟩ := b.split e
    obtain ⟨h1, e⟩ := (faithful_v4 b).split e
    have h2 := (faithful_v8 b).inj e
    cases x; cases y; cases h0; cases h1; cases h2; rfl
  | skein n =>
    simp only [cells, List.append_assoc] at e
    obtain ⟨h0, e⟩ := b.split e
    obtain ⟨h1, e⟩ := b.split e
    cases x; cases y; cases h0; cases h1; cases faithful_arr.inj e; rfl
  | fsb =>
    obtain ⟨h0, e⟩ := b.split e
    obtain ⟨x0, _ | x1⟩ := x <;> obtain ⟨y0, _ | y1⟩ := y
    · cases h0; rfl
    · simp [cells] at e
    · simp [cells] at e
    · cases h0; cases faithful_list.inj e; rfl

/-- Concrete case: a hasher with data in buffer and state, and what its drop leaves. -/
example :
    let x := Sha1.sha1.update Sha1.sha1.new [1, 2, 3]
    cells x.core = [[0x67452301], [0xEFCDAB89], [0x98BADCFE], [0x10325476], [0xC3D2E1F0], [0]] ∧
      cells (Droppable.drop x) = [0] :: List.replicate 64 0 :: List.replicate 6 [0] := by decide +kernel

/-! BLAKE2 -/
namespace Blake2
variable {w : Nat}

theorem upd_h0 (c : Cfg w) (s : State w) (l : List Bytes) : (updateBlocks c s l).h0 = s.h0 := by
  induction l generalizing s with
  | nil => rfl
  | cons b l ih => exact ih _

theorem zero_vec (a b : V2 (Vec w)) : zeroize a = zeroize b := rfl

theorem drop_state {s s' : State w} (h : s.h0 = s'.h0) : Droppable.drop s = Droppable.drop s' := by
  cases s; cases s'; cases h; rfl

theorem zeroize_buffer {b b' : BlockBuffer} (h : b.data.length = b'.data.length) : zeroize b = zeroize b' := by
  simp only [zeroize, h]

theorem drop_hasher {c : Cfg w} (hbs : 0 < c.blockSize) (out : Nat) (s : State w) (l l' : List Bytes) :
    let C := (varCore c).ctWith out s
    Droppable.drop (C.updates C.new l) = Droppable.drop (C.updates C.new l') := by
  intro C
  have L : C.Lawful _ := (lawful c hbs).ct out s
  have r := (Core.Rep.new L).updates L l
  have r' := (Core.Rep.new L).updates L l'
  simp only [Droppable.drop]
  congr 1
  · apply drop_state
    rw [r.2.1, r'.2.1]
    exact (upd_h0 c _ _).trans (upd_h0 c _ _).symm
  · exact zeroize_buffer ((BlockBuffer.fits_iff.mp r.1).1.trans (BlockBuffer.fits_iff.mp r'.1).1.symm)
end Blake2

/-- C48. BLAKE2 hashers (with the `reset` feature they also hold the initial state `h0`, which `Drop` leaves): what remains
after drop does not depend on the message. `s` is whatever the constructor made of salt, persona and sizes. -/
theorem C48_blake2b_partial (out : Nat) (s : Blake2.State 64) (l l' : List Bytes) :
    let C := (Blake2.varCore Blake2.cfgB).ctWith out s
    Droppable.drop (C.updates C.new l) = Droppable.drop (C.updates C.new l') :=
  Blake2.drop_hasher (by decide) out s l l'
theorem C48_blake2s_partial (out : Nat) (s : Blake2.State 32) (l l' : List Bytes) :
    let C := (Blake2.varCore Blake2.cfgS).ctWith out s
    Droppable.drop (C.updates C.new l) = Droppable.drop (C.updates C.new l') :=
  Blake2.drop_hasher (by decide) out s l l'

/-- C48. The claim is false of the BLAKE2 MACs: for every accepted key and every message, the dropped MAC still holds the key
(zero-padded), byte for byte (macros.rs:475-477 zeroizes a copy). -/
theorem C48_mac_violated {w : Nat} (c : Blake2.Cfg w) (out : Nat) (key : Bytes) (m : Blake2.Mac w)
    (hm : Blake2.newFromSlice c out key = .ok m) (msgs : List Bytes) :
    (key ++ List.replicate (c.bytes - key.length) 0).map BitVec.toNat ∈
      cells (Droppable.drop (msgs.foldl (Blake2.Mac.update c) m)) := by
  have hk : ∀ (l : List Bytes) (m : Blake2.Mac w), (l.foldl (Blake2.Mac.update c) m).keyBlock = m.keyBlock := by
    intro l
    induction l with
    | nil => intro m; rfl
    | cons d l ih => intro m; exact ih _
  have hkb : m.keyBlock = some (Blake2.padded c.bytes key) := by
    simp only [Blake2.newFromSlice] at hm
    split at hm
    · cases hm
    · split at hm
      · cases hm
      · cases hm; rfl
  have e : (Droppable.drop (msgs.foldl (Blake2.Mac.update c) m)).keyBlock = some (Blake2.padded c.bytes key) :=
    (hk msgs m).trans hkb
  simp only [cells, e, List.mem_append, List.mem_singleton]
  right
  simp [Blake2.padded, overwrite]

/-- C48, what holds of the MACs: apart from the key block, what remains depends on the length of the key only, not on the key
or the messages. -/
theorem C48_mac_partial {w : Nat} (c : Blake2.Cfg w) (hbs : 0 < c.blockSize) (hb : c.bytes ≤ c.blockSize) (out : Nat)
    (key key' : Bytes) (hl : key.length = key'.length) (m m' : Blake2.Mac w)
    (hm : Blake2.newFromSlice c out key = .ok m) (hm' : Blake2.newFromSlice c out key' = .ok m') (msgs msgs' : List Bytes) :
    { Droppable.drop (msgs.foldl (Blake2.Mac.update c) m) with keyBlock := none } =
      { Droppable.drop (msgs'.foldl (Blake2.Mac.update c) m') with keyBlock := none } := by
  have inv : ∀ (l : List Bytes) (m : Blake2.Mac w), m.buffer.WF .lazy c.blockSize →
      (l.foldl (Blake2.Mac.update c) m).buffer.WF .lazy c.blockSize ∧
        (l.foldl (Blake2.Mac.update c) m).core.h0 = m.core.h0 := by
    intro l
    induction l with
    | nil => intro m h; exact ⟨h, rfl⟩
    | cons d l ih =>
      intro m h
      have S := (Blake2.lawful c hbs).ct 0 m.core
      obtain ⟨h1, -, h3⟩ := BlockBuffer.digestBlocks_spec hbs h d (Blake2.updateBlocks c) m.core S.nil S.app
      obtain ⟨h4, h5⟩ := ih (m.update c d) h1
      refine ⟨h4, h5.trans ?_⟩
      show (BlockBuffer.digestBlocks .lazy c.blockSize m.buffer d (Blake2.updateBlocks c) m.core).2.h0 = m.core.h0
      rw [h3]; exact Blake2.upd_h0 c _ _
  have start : ∀ (k : Bytes) (m : Blake2.Mac w), Blake2.newFromSlice c out k = .ok m →
      m.buffer.WF .lazy c.blockSize ∧ Blake2.newWithParams c [] [] k.length out = some m.core := by
    intro k m h
    simp only [Blake2.newFromSlice] at h
    split at h
    · cases h
    · split at h
      · cases h
      · rename_i hc _ hs
        cases h
        refine ⟨?_, hs⟩
        have : (Blake2.padded c.blockSize k).length = c.blockSize := by
          simp [Blake2.padded, overwrite]; omega
        simp [BlockBuffer.WF, Blake2.bufferOf, this]
  obtain ⟨w1, p1⟩ := start _ _ hm
  obtain ⟨w2, p2⟩ := start _ _ hm'
  obtain ⟨w3, h3⟩ := inv msgs m w1
  obtain ⟨w4, h4⟩ := inv msgs' m' w2
  have : m.core = m'.core := by rw [hl, p2] at p1; exact (Option.some.inj p1).symm
  simp only [Droppable.drop, Blake2.Mac.mk.injEq, and_true]
  exact ⟨Blake2.drop_state (by rw [h3, h4, this]),
    Blake2.zeroize_buffer ((BlockBuffer.fits_iff.mp w3).1.trans (BlockBuffer.fits_iff.mp w4).1.symm)⟩

/-- The side conditions of `C48_mac_partial` hold for both variants. -/
example : (0 < Blake2.cfgB.blockSize ∧ Blake2.cfgB.bytes ≤ Blake2.cfgB.blockSize) ∧
    (0 < Blake2.cfgS.blockSize ∧ Blake2.cfgS.bytes ≤ Blake2.cfgS.blockSize) := by decide
/-- Concrete case: the key survives in the dropped object. -/
example : ∃ m, Blake2.newFromSlice Blake2.cfgS 32 [0xde, 0xad, 0xbe, 0xef] = .ok m ∧
    (Droppable.drop m).keyBlock = some ([0xde, 0xad, 0xbe, 0xef] ++ List.replicate 28 0) := ⟨_, rfl, by decide +kernel⟩

/-! sha1-checked -/

/-- C48. The claim is false of `sha1_checked::Sha1`, which is marked `ZeroizeOnDrop`: the chaining value and the block counter of
any hasher are still there after drop. -/
theorem C48_sha1Checked_violated (s : Sha1Checked.State) :
    (Droppable.drop s).h = s.h ∧ (Droppable.drop s).blockLen = s.blockLen := ⟨rfl, rfl⟩

/-- C48, what holds: of the detection state only configuration and result flag remain. -/
theorem C48_sha1Checked_partial (s : Sha1Checked.State) (d : Sha1Checked.Detection) (h : (Droppable.drop s).detection = some d) :
    Spec.blank d.ihv1 ∧ Spec.blank d.ihv2 ∧ Spec.blank d.m1 ∧ Spec.blank d.m2 ∧ Spec.blank d.state58 ∧ Spec.blank d.state65 := by
  obtain ⟨a, b, _ | e⟩ := s
  · cases h
  · cases h
    exact ⟨blank_v5 blank_bv _, blank_v5 blank_bv _, blank_arr _, blank_arr _, blank_v5 blank_bv _, blank_v5 blank_bv _⟩

/-- C48. Concretely: two 64-byte messages can be told apart from the dropped hasher. -/
theorem C48_sha1Checked_distinguish_violated :
    let C := Sha1Checked.sha1Checked Sha1Checked.Builder.default
    cells (Droppable.drop (C.update C.new (List.replicate 64 0)).core) ≠
      cells (Droppable.drop (C.update C.new (List.replicate 64 1)).core) := by decide +kernel

end Hashes
