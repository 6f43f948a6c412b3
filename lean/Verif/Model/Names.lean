import Verif.Base.Bytes
/- The `AlgorithmName` and `Debug` implementations of the repository: every `write_alg_name` and every `fmt::Debug` (written out or
derived) found by `grep -rn "write_alg_name\|fmt::Debug\|derive(.*Debug" /repo/*/src`.  Text is a list of characters.

External: decimal numbers (`{}` and `{:?}` of unsigned integers), the text of derived `Debug`, the wrappers of `digest`
(`CtVariableCoreWrapper` appends `_` and the output size in bytes; `CoreWrapper` and `RtVariableCoreWrapper` print the name and ` { .. }`), and
`ascon::State`, a struct with derived `Debug` and the field `x: [u64; 5]`. -/
namespace Hashes.Names

abbrev Text := List Char

/-- `{}` of a `usize` or `u64` -/
def dec (n : Nat) : Text := Nat.toDigits 10 n

/-- The parameter sets of GOST R 34.11-94, gost94/src/params.rs -/
inductive Box | cryptoPro | s2015 | test | ua
deriving DecidableEq, Repr

/-- The core types whose state has no parameter. -/
inductive Plain
  | belt | blake2b | blake2s | fsb160 | fsb224 | fsb256 | fsb384 | fsb512 | gost94 (p : Box) | groestlShort | groestlLong | jh | k12
  | kupynaShort | kupynaLong | md2 | md4 | md5 | ripemd128 | ripemd160 | ripemd256 | ripemd320 | sha1 | sha256 | sha512
  | keccak224 | keccak256 | keccak384 | keccak512 | keccak256Full | sha3_224 | sha3_256 | sha3_384 | sha3_512
  | shake128 | shake256 | turboShake128 | turboShake256 | cShake128 | cShake256 | shabal | sm3 | streebog | tiger | tiger2 | whirlpool
deriving DecidableEq, Repr

/-- The widths of Skein, skein/src/lib.rs -/
inductive Wide | w256 | w512 | w1024
deriving DecidableEq, Repr

/-- The core types. -/
inductive Core
  | plain (c : Plain)
  /-- `Skein256Core<N>`, … with `N` bytes of output -/
  | skein (w : Wide) (n : Nat)
  | asconHash | asconXof
deriving DecidableEq, Repr

def Plain.name : Plain → Text
  /- belt-hash/src/lib.rs:127 -/
  | .belt => "BeltHash".toList
  /- blake2/src/macros.rs:240 with lib.rs:52, :88 -/
  | .blake2b => "Blake2b".toList
  | .blake2s => "Blake2s".toList
  /- fsb/src/macros.rs:75 with lib.rs:36-38, :53-55, :70-72, :87-89, :104-106 -/
  | .fsb160 => "Fsb160".toList
  | .fsb224 => "Fsb224".toList
  | .fsb256 => "Fsb256".toList
  | .fsb384 => "Fsb384".toList
  | .fsb512 => "Fsb512".toList
  /- gost94/src/gost94_core.rs:271 with params.rs:33, :58, :77, :102 -/
  | .gost94 .cryptoPro => "Gost94CryptoPro".toList
  | .gost94 .s2015 => "Gost94s2015".toList
  | .gost94 .test => "Gost94Test".toList
  | .gost94 .ua => "Gost28147UA".toList
  /- groestl/src/lib.rs:111, :242 -/
  | .groestlShort => "GroestlShort".toList
  | .groestlLong => "GroestlLong".toList
  /- jh/src/lib.rs:111, k12/src/lib.rs:178 -/
  | .jh => "Jh".toList
  | .k12 => "KangarooTwelve".toList
  /- kupyna/src/short.rs:101, long.rs:103 -/
  | .kupynaShort => "KupynaShort".toList
  | .kupynaLong => "KupynaLong".toList
  /- md2/src/lib.rs:128, md4/src/lib.rs:111, md5/src/lib.rs:103 -/
  | .md2 => "Md2".toList
  | .md4 => "Md4".toList
  | .md5 => "Md5".toList
  /- ripemd/src/lib.rs:112 with :170-173 -/
  | .ripemd128 => "Ripemd128".toList
  | .ripemd160 => "Ripemd160".toList
  | .ripemd256 => "Ripemd256".toList
  | .ripemd320 => "Ripemd320".toList
  /- sha1/src/lib.rs:106, sha2/src/core_api.rs:80, :198 -/
  | .sha1 => "Sha1".toList
  | .sha256 => "Sha256".toList
  | .sha512 => "Sha512".toList
  /- sha3/src/macros.rs:75 with lib.rs:47-50, :52-59, :61-96 -/
  | .keccak224 => "Keccak224".toList
  | .keccak256 => "Keccak256".toList
  | .keccak384 => "Keccak384".toList
  | .keccak512 => "Keccak512".toList
  | .keccak256Full => "Keccak256Full".toList
  | .sha3_224 => "Sha3_224".toList
  | .sha3_256 => "Sha3_256".toList
  | .sha3_384 => "Sha3_384".toList
  | .sha3_512 => "Sha3_512".toList
  /- sha3/src/macros.rs:215 with lib.rs:98-117, :375 with :119-134, :577 with :136-155 -/
  | .shake128 => "Shake128".toList
  | .shake256 => "Shake256".toList
  | .turboShake128 => "TurboShake128".toList
  | .turboShake256 => "TurboShake256".toList
  | .cShake128 => "CShake128".toList
  | .cShake256 => "CShake256".toList
  /- shabal/src/core_api.rs:238, sm3/src/lib.rs:98, streebog/src/core_api.rs:147 -/
  | .shabal => "Shabal".toList
  | .sm3 => "Sm3".toList
  | .streebog => "Streebog".toList
  /- tiger/src/lib.rs:146-150, whirlpool/src/lib.rs:130 -/
  | .tiger => "Tiger".toList
  | .tiger2 => "Tiger2".toList
  | .whirlpool => "Whirlpool".toList

/-- skein/src/lib.rs:166: `stringify!($full_name)` -/
def Wide.name : Wide → Text
  | .w256 => "Skein256".toList
  | .w512 => "Skein512".toList
  | .w1024 => "Skein1024".toList

/-- `write_alg_name` of a core. -/
def Core.name : Core → Text
  | .plain c => c.name
  | .skein w _ => w.name
  /- ascon-hash/src/lib.rs:175, :240 -/
  | .asconHash => "Ascon-Hash256".toList
  | .asconXof => "AsconXOF".toList

/-- Cores with `VariableOutputCore`: sha2/src/core_api.rs:51, :167; blake2/src/macros.rs:206; groestl/src/lib.rs:76, :207; jh/src/lib.rs:74;
kupyna/src/short.rs:51, long.rs:51; shabal/src/core_api.rs:191; streebog/src/core_api.rs:118. -/
def Plain.variable : Plain → Bool
  | .sha256 | .sha512 | .blake2b | .blake2s | .groestlShort | .groestlLong | .jh | .kupynaShort | .kupynaLong | .shabal | .streebog => true
  | _ => false

/-- The types `write_alg_name` is called on: a core with a fixed (or extendable) output, or `CtVariableCoreWrapper<core, n>`. -/
inductive Hash
  | fixed (c : Core)
  | ct (c : Plain) (n : Nat)
deriving DecidableEq, Repr

/-- Variable-output cores are used through the wrapper, the others without. -/
def Hash.Proper : Hash → Prop
  | .fixed (.plain c) => c.variable = false
  | .fixed _ => True
  | .ct c _ => c.variable = true

/-- `write_alg_name`; for the wrapper: `T::write_alg_name(f)?; f.write_str("_")?; write!(f, "{}", OutSize::USIZE)` -/
def Hash.name : Hash → Text
  | .fixed c => c.name
  | .ct c n => c.name ++ '_' :: dec n

/-- `Debug` of `CoreWrapper<T>`: `T::write_alg_name(f)?; f.write_str(" { .. }")` -/
def Hash.debug (h : Hash) : Text := h.name ++ " { .. }".toList

/-- `Debug` of a core written out in the source as one string. -/
def Plain.debug : Plain → Text
  /- belt-hash/src/lib.rs:133, blake2/src/macros.rs:246 -/
  | .belt => "BeltHashCore { ... }".toList
  | .blake2b => "Blake2bVarCore { ... }".toList
  | .blake2s => "Blake2sVarCore { ... }".toList
  /- fsb/src/macros.rs:81 -/
  | .fsb160 => "Fsb160Core { ... }".toList
  | .fsb224 => "Fsb224Core { ... }".toList
  | .fsb256 => "Fsb256Core { ... }".toList
  | .fsb384 => "Fsb384Core { ... }".toList
  | .fsb512 => "Fsb512Core { ... }".toList
  /- gost94/src/gost94_core.rs:277-278 -/
  | .gost94 p => (Plain.gost94 p).name ++ "Core { .. }".toList
  /- groestl/src/lib.rs:117, :248; jh/src/lib.rs:117; k12/src/lib.rs:184; kupyna/src/short.rs:108, long.rs:110 -/
  | .groestlShort => "GroestlShortVarCore { ... }".toList
  | .groestlLong => "GroestlLongVarCore { ... }".toList
  | .jh => "JhCore { ... }".toList
  | .k12 => "KangarooTwelveCore { ... }".toList
  | .kupynaShort => "KupynaShortVarCore { ... }".toList
  | .kupynaLong => "KupynaLongVarCore { ... }".toList
  /- md2/src/lib.rs:134, md4/src/lib.rs:117, md5/src/lib.rs:109 -/
  | .md2 => "Md2Core { ... }".toList
  | .md4 => "Md4Core { ... }".toList
  | .md5 => "Md5Core { ... }".toList
  /- ripemd/src/lib.rs:119 -/
  | .ripemd128 => "Ripemd128Core { ... }".toList
  | .ripemd160 => "Ripemd160Core { ... }".toList
  | .ripemd256 => "Ripemd256Core { ... }".toList
  | .ripemd320 => "Ripemd320Core { ... }".toList
  /- sha1/src/lib.rs:112, sha2/src/core_api.rs:87, :205 -/
  | .sha1 => "Sha1Core { ... }".toList
  | .sha256 => "Sha256VarCore { ... }".toList
  | .sha512 => "Sha512VarCore { ... }".toList
  /- sha3/src/macros.rs:81, :221, :381, :583 -/
  | .keccak224 => "Keccak224Core { ... }".toList
  | .keccak256 => "Keccak256Core { ... }".toList
  | .keccak384 => "Keccak384Core { ... }".toList
  | .keccak512 => "Keccak512Core { ... }".toList
  | .keccak256Full => "Keccak256FullCore { ... }".toList
  | .sha3_224 => "Sha3_224Core { ... }".toList
  | .sha3_256 => "Sha3_256Core { ... }".toList
  | .sha3_384 => "Sha3_384Core { ... }".toList
  | .sha3_512 => "Sha3_512Core { ... }".toList
  | .shake128 => "Shake128Core { ... }".toList
  | .shake256 => "Shake256Core { ... }".toList
  | .turboShake128 => "TurboShake128Core { ... }".toList
  | .turboShake256 => "TurboShake256Core { ... }".toList
  | .cShake128 => "CShake128Core { ... }".toList
  | .cShake256 => "CShake256Core { ... }".toList
  /- shabal/src/core_api.rs:245, sm3/src/lib.rs:104, streebog/src/core_api.rs:154 -/
  | .shabal => "ShabalVarCore { ... }".toList
  | .sm3 => "Sm3Core { ... }".toList
  | .streebog => "StreebogVarCore { ... }".toList
  /- tiger/src/lib.rs:156-160, whirlpool/src/lib.rs:136 -/
  | .tiger => "TigerCore { ... }".toList
  | .tiger2 => "Tiger2Core { ... }".toList
  | .whirlpool => "WhirlpoolCore { ... }".toList

/-- `[u64]` printed with `{:?}` -/
def showWords : List W64 → Text
  | [] => "[]".toList
  | x :: l => '[' :: (dec x.toNat ++ (l.flatMap fun y => ", ".toList ++ dec y.toNat) ++ [']'])

/-- Derived `Debug` of `HashCore<P>`, ascon-hash/src/lib.rs:71-75: `state: State` and `phantom: PhantomData<P>`. -/
def showHashCore (params : Text) (x : List W64) : Text :=
  "HashCore { state: State { x: ".toList ++ showWords x ++ " }, phantom: PhantomData<".toList ++ params ++ "> }".toList

/-- `Debug` of a core in the state `x` (its words; everything but the Ascon cores ignores them). -/
def Core.debug (c : Core) (x : List W64) : Text :=
  match c with
  | .plain c => c.debug
  /- skein/src/lib.rs:172: `write!(f, "{}<{}> {{ .. }}", stringify!($name), N::USIZE)` -/
  | .skein w n => w.name ++ "Core<".toList ++ dec n ++ "> { .. }".toList
  /- derived, ascon-hash/src/lib.rs:131-134, :180-183 -/
  | .asconHash => "AsconCore { state: ".toList ++ showHashCore "ascon_hash::Parameters".toList x ++ " }".toList
  | .asconXof => "AsconXofCore { state: ".toList ++ showHashCore "ascon_hash::ParametersXof".toList x ++ " }".toList

/-- Derived `Debug` of `AsconXofReaderCore`, ascon-hash/src/lib.rs:204-207 -/
def asconReaderDebug (x : List W64) : Text := "AsconXofReaderCore { hasher: ".toList ++ showHashCore "ascon_hash::ParametersXof".toList x ++ " }".toList

/-- `Debug` of `Blake2bMac<n>` and `Blake2sMac<n>`, blake2/src/macros.rs:460: `write!(f, "{}{} {{ ... }}", stringify!($name), OutSize::USIZE)` -/
def macDebug (b : Bool) (n : Nat) : Text := (if b then "Blake2bMac".toList else "Blake2sMac".toList) ++ dec n ++ " { ... }".toList

/-- `Debug` of `sha1_checked::Sha1`, sha1-checked/src/lib.rs:157 -/
def sha1CheckedDebug : Text := "Sha1CollisionDetection { .. }".toList

end Hashes.Names
