
for n in ['keccak_224','keccak_256','keccak_256_full','keccak_384','keccak_512','sha3_224','sha3_256','sha3_384','sha3_512']:
    nm = {'keccak_224':'keccak224','keccak_256':'keccak256','keccak_256_full':'keccak256Full','keccak_384':'keccak384','keccak_512':'keccak512'}.get(n, n)
    K.append((f'sha3/tests/data/{n}.blb', 'Keccak', fin(f'Hashes.Sha3.{nm}')))
for n, r in [('shake128', 168), ('shake256', 136)]:
    K.append((f'sha3/tests/data/{n}.blb', 'Keccak', xof(f'Hashes.Sha3.{n}', f'Hashes.Sha3.xof Hashes.Sha3.f24 {r}')))
K.append(('blake2/tests/data/blake2b/fixed.blb', 'Blake2', 'fun m n => match Hashes.Blake2.core Hashes.Blake2.cfgB n with | some c => c.finish (c.update (c.update c.new (m.take 3)) (m.drop 3)) | none => []'))
for w, c in [('b', 'B'), ('s', 'S')]:
    K.append((f'blake2/tests/data/blake2{w}/variable.blb', 'Blake2', f'fun m n => match Hashes.Blake2.core Hashes.Blake2.cfg{c} n with | some c => c.finish (c.update (c.update c.new (m.take 3)) (m.drop 3)) | none => []'))
K.append(('whirlpool/tests/data/whirlpool.blb', 'Whirlpool', fin('Hashes.Whirlpool.whirlpool')))
for n, v in [(224, 'short'), (256, 'short'), (384, 'long'), (512, 'long')]:
    K.append((f'groestl/tests/data/groestl{n}.blb', 'Groestl', f'fun m n => match Hashes.Groestl.core Hashes.Groestl.{v} n with | some c => c.finish (c.update (c.update c.new (m.take 3)) (m.drop 3)) | none => []'))
for n, v in [(48, 'short'), (256, 'short'), (384, 'long'), (512, 'long')]:
    K.append((f'kupyna/tests/data/kupyna{n}.blb', 'Kupyna', f'fun m n => match Hashes.Kupyna.core Hashes.Kupyna.{v} n with | some c => c.finish (c.update (c.update c.new (m.take 3)) (m.drop 3)) | none => []'))
for n in [256, 512]:
    K.append((f'streebog/tests/data/streebog{n}.blb', 'Streebog', f'fun m n => match Hashes.Streebog.core n with | some c => c.finish (c.update (c.update c.new (m.take 3)) (m.drop 3)) | none => []'))
for f, c in [('cryptopro', 'cryptoPro'), ('test', 'test')]:
    K.append((f'gost94/tests/data/{f}.blb', 'Gost94', f'fun m _ => Hashes.Gost94.{c}.finish (Hashes.Gost94.{c}.update (Hashes.Gost94.{c}.update Hashes.Gost94.{c}.new (m.take 3)) (m.drop 3))'))
for n in [224, 256, 384, 512]:
    for kind in ['Short', 'Long']:
        K.append((f'jh/tests/data/{kind}MsgKAT_{n}.blb', 'Jh', f'fun m n => match Hashes.Jh.core n with | some c => c.finish (c.update (c.update c.new (m.take 3)) (m.drop 3)) | none => []'))
for n in [192, 224, 256, 384, 512]:
    K.append((f'shabal/tests/data/shabal{n}.blb', 'Shabal', f'fun m n => match Hashes.Shabal.core n with | some c => c.finish (c.update (c.update c.new (m.take 3)) (m.drop 3)) | none => []'))
_belt = '(Hashes.Belt.belt fun x k => let y := Hashes.Spec.Belt.block (bytesOfWordsLE k.toList) (bytesOfWordsLE x.toList); ⟨wordLE 32 y 0, wordLE 32 y 1, wordLE 32 y 2, wordLE 32 y 3⟩)'
K.append(('belt-hash/tests/data/stb.blb', 'Belt\nimport Verif.Spec.Belt', f'fun m _ => {_belt}.finish ({_belt}.update ({_belt}.update {_belt}.new (m.take 3)) (m.drop 3))'))
K.append(('ascon-hash/tests/data/asconhash.txt', 'Ascon\nimport Verif.Spec.Ascon', fin('Hashes.Ascon.hash256 Hashes.Spec.Ascon.p12')))
K.append(('ascon-hash/tests/data/asconxof.txt', 'Ascon\nimport Verif.Spec.Ascon', xof('Hashes.Ascon.xof128 Hashes.Spec.Ascon.p12', 'Hashes.Ascon.reader Hashes.Spec.Ascon.p12')))
_sk = lambda nw: f'(Hashes.Skein.core (n := {nw}) (fun k t x => Arr.ofFn {nw} fun i => (Hashes.Spec.Skein.threefishW {nw} k.toList [t.1, t.2] x.toList).getD i 0) n)'
for nw, b, outs in [(4, 256, [32, 64]), (8, 512, [32, 64]), (16, 1024, [32, 64, 128])]:
    for o in outs:
        K.append((f'skein/tests/data/skein{b}_{o}.blb', 'Skein\nimport Verif.Spec.Skein', f'fun m n => let c := {_sk(nw)}; c.finish (c.update (c.update c.new (m.take 3)) (m.drop 3))'))
