import Verif.Basic.Bytes

/-!
# pqcrypto/pqcrypto-internals/cfiles/fips202.c

The Keccak code behind every SHAKE call of Dilithium.  `pqclean/common/fips202.c` is the same code with the contexts allocated by `malloc`.

Conventions: `uint64_t` is `BitVec 64`; the 25 lanes of a context are a vector and its 26th word, the byte counter, is a natural number
(the additions `mlen + s_inc[25]` are taken not to wrap: messages are shorter than 2^64 - 200 bytes).  What an access outside an array does is the
parameter `O : Oob`.  Loops without an obvious bound have fuel; `none` means that the fuel ran out.  Output buffers are returned as lists.
-/

namespace Verif.Keccak

/-- `uint64_t`. -/
abbrev U64 := BitVec 64

/-- `uint64_t s[25]`. -/
abbrev Lanes := Vector U64 25

/-- Array accesses outside the bounds are undefined in C: whatever they do. -/
structure Oob where
  /-- reading `s[i]`, `i ≥ 25` -/
  read : Lanes → Nat → U64
  /-- writing `s[i] ^= v`, `i ≥ 25` -/
  write : Lanes → Nat → U64 → Lanes
  /-- reading byte `i` of a buffer of at most `i` bytes -/
  byte : Bytes → Nat → UInt8

/-- `s[i]`. -/
def rd (O : Oob) (s : Lanes) (i : Nat) : U64 := if h : i < 25 then s[i] else O.read s i

/-- `s[i] ^= v`. -/
def xorAt (O : Oob) (s : Lanes) (i : Nat) (v : U64) : Lanes :=
  if h : i < 25 then s.set i (s[i] ^^^ v) else O.write s i v

/-- `m[i]`. -/
def rdByte (O : Oob) (m : Bytes) (i : Nat) : UInt8 := if h : i < m.length then m[i] else O.byte m i

/-- `(uint64_t)b`. -/
def toU64 (b : UInt8) : U64 := b.toBitVec.setWidth 64

/-- `(uint8_t)w`. -/
def toU8 (w : U64) : UInt8 := UInt8.ofBitVec (w.setWidth 8)

/-- `ROL` (fips202.c:16). -/
def rol (a : U64) (k : Nat) : U64 := (a <<< k) ^^^ (a >>> (64 - k))

/-- `load64(m + off)` (fips202.c:27-34). -/
def load64 (O : Oob) (m : Bytes) (off : Nat) : U64 :=
  (List.range 8).foldl (fun r i => r ||| (toU64 (rdByte O m (off + i)) <<< (8 * i))) 0

/-- `store64` (fips202.c:44-48). -/
def store64 (u : U64) : Bytes := (List.range 8).map fun i => toU8 (u >>> (8 * i))

/-- `KeccakF_RoundConstants` (fips202.c:51-64). -/
def roundConstants : List U64 := [
  0x0000000000000001, 0x0000000000008082, 0x800000000000808a, 0x8000000080008000, 0x000000000000808b, 0x0000000080000001,
  0x8000000080008081, 0x8000000000008009, 0x000000000000008a, 0x0000000000000088, 0x0000000080008009, 0x000000008000000a,
  0x000000008000808b, 0x800000000000008b, 0x8000000000008089, 0x8000000000008003, 0x8000000000008002, 0x8000000000000080,
  0x000000000000800a, 0x800000008000000a, 0x8000000080008081, 0x8000000000008080, 0x0000000080000001, 0x8000000080008008]

/-- One pass of the first half of the loop body: the variables `A*` to the variables `E*` (fips202.c:117-210). The `A*` are the words of `s` in order
(`copyFromState`, fips202.c:90-114; `copyToState`, 309-333). -/
def halfA (rc : U64) (s : Lanes) : Lanes :=
  let Aba := s[0]
  let Abe := s[1]
  let Abi := s[2]
  let Abo := s[3]
  let Abu := s[4]
  let Aga := s[5]
  let Age := s[6]
  let Agi := s[7]
  let Ago := s[8]
  let Agu := s[9]
  let Aka := s[10]
  let Ake := s[11]
  let Aki := s[12]
  let Ako := s[13]
  let Aku := s[14]
  let Ama := s[15]
  let Ame := s[16]
  let Ami := s[17]
  let Amo := s[18]
  let Amu := s[19]
  let Asa := s[20]
  let Ase := s[21]
  let Asi := s[22]
  let Aso := s[23]
  let Asu := s[24]
  let BCa := Aba ^^^ Aga ^^^ Aka ^^^ Ama ^^^ Asa
  let BCe := Abe ^^^ Age ^^^ Ake ^^^ Ame ^^^ Ase
  let BCi := Abi ^^^ Agi ^^^ Aki ^^^ Ami ^^^ Asi
  let BCo := Abo ^^^ Ago ^^^ Ako ^^^ Amo ^^^ Aso
  let BCu := Abu ^^^ Agu ^^^ Aku ^^^ Amu ^^^ Asu
  let Da := BCu ^^^ rol BCe 1
  let De := BCa ^^^ rol BCi 1
  let Di := BCe ^^^ rol BCo 1
  let Do := BCi ^^^ rol BCu 1
  let Du := BCo ^^^ rol BCa 1
  let Aba := Aba ^^^ Da
  let BCa := Aba
  let Age := Age ^^^ De
  let BCe := rol Age 44
  let Aki := Aki ^^^ Di
  let BCi := rol Aki 43
  let Amo := Amo ^^^ Do
  let BCo := rol Amo 21
  let Asu := Asu ^^^ Du
  let BCu := rol Asu 14
  let Eba := BCa ^^^ ((~~~BCe) &&& BCi)
  let Eba := Eba ^^^ rc
  let Ebe := BCe ^^^ ((~~~BCi) &&& BCo)
  let Ebi := BCi ^^^ ((~~~BCo) &&& BCu)
  let Ebo := BCo ^^^ ((~~~BCu) &&& BCa)
  let Ebu := BCu ^^^ ((~~~BCa) &&& BCe)
  let Abo := Abo ^^^ Do
  let BCa := rol Abo 28
  let Agu := Agu ^^^ Du
  let BCe := rol Agu 20
  let Aka := Aka ^^^ Da
  let BCi := rol Aka 3
  let Ame := Ame ^^^ De
  let BCo := rol Ame 45
  let Asi := Asi ^^^ Di
  let BCu := rol Asi 61
  let Ega := BCa ^^^ ((~~~BCe) &&& BCi)
  let Ege := BCe ^^^ ((~~~BCi) &&& BCo)
  let Egi := BCi ^^^ ((~~~BCo) &&& BCu)
  let Ego := BCo ^^^ ((~~~BCu) &&& BCa)
  let Egu := BCu ^^^ ((~~~BCa) &&& BCe)
  let Abe := Abe ^^^ De
  let BCa := rol Abe 1
  let Agi := Agi ^^^ Di
  let BCe := rol Agi 6
  let Ako := Ako ^^^ Do
  let BCi := rol Ako 25
  let Amu := Amu ^^^ Du
  let BCo := rol Amu 8
  let Asa := Asa ^^^ Da
  let BCu := rol Asa 18
  let Eka := BCa ^^^ ((~~~BCe) &&& BCi)
  let Eke := BCe ^^^ ((~~~BCi) &&& BCo)
  let Eki := BCi ^^^ ((~~~BCo) &&& BCu)
  let Eko := BCo ^^^ ((~~~BCu) &&& BCa)
  let Eku := BCu ^^^ ((~~~BCa) &&& BCe)
  let Abu := Abu ^^^ Du
  let BCa := rol Abu 27
  let Aga := Aga ^^^ Da
  let BCe := rol Aga 36
  let Ake := Ake ^^^ De
  let BCi := rol Ake 10
  let Ami := Ami ^^^ Di
  let BCo := rol Ami 15
  let Aso := Aso ^^^ Do
  let BCu := rol Aso 56
  let Ema := BCa ^^^ ((~~~BCe) &&& BCi)
  let Eme := BCe ^^^ ((~~~BCi) &&& BCo)
  let Emi := BCi ^^^ ((~~~BCo) &&& BCu)
  let Emo := BCo ^^^ ((~~~BCu) &&& BCa)
  let Emu := BCu ^^^ ((~~~BCa) &&& BCe)
  let Abi := Abi ^^^ Di
  let BCa := rol Abi 62
  let Ago := Ago ^^^ Do
  let BCe := rol Ago 55
  let Aku := Aku ^^^ Du
  let BCi := rol Aku 39
  let Ama := Ama ^^^ Da
  let BCo := rol Ama 41
  let Ase := Ase ^^^ De
  let BCu := rol Ase 2
  let Esa := BCa ^^^ ((~~~BCe) &&& BCi)
  let Ese := BCe ^^^ ((~~~BCi) &&& BCo)
  let Esi := BCi ^^^ ((~~~BCo) &&& BCu)
  let Eso := BCo ^^^ ((~~~BCu) &&& BCa)
  let Esu := BCu ^^^ ((~~~BCa) &&& BCe)
  #v[Eba, Ebe, Ebi, Ebo, Ebu, Ega, Ege, Egi, Ego, Egu, Eka, Eke, Eki, Eko, Eku, Ema, Eme, Emi, Emo, Emu, Esa, Ese, Esi, Eso, Esu]

/-- The second half of the loop body: the variables `E*` to the variables `A*` (fips202.c:212-305). -/
def halfE (rc : U64) (s : Lanes) : Lanes :=
  let Eba := s[0]
  let Ebe := s[1]
  let Ebi := s[2]
  let Ebo := s[3]
  let Ebu := s[4]
  let Ega := s[5]
  let Ege := s[6]
  let Egi := s[7]
  let Ego := s[8]
  let Egu := s[9]
  let Eka := s[10]
  let Eke := s[11]
  let Eki := s[12]
  let Eko := s[13]
  let Eku := s[14]
  let Ema := s[15]
  let Eme := s[16]
  let Emi := s[17]
  let Emo := s[18]
  let Emu := s[19]
  let Esa := s[20]
  let Ese := s[21]
  let Esi := s[22]
  let Eso := s[23]
  let Esu := s[24]
  let BCa := Eba ^^^ Ega ^^^ Eka ^^^ Ema ^^^ Esa
  let BCe := Ebe ^^^ Ege ^^^ Eke ^^^ Eme ^^^ Ese
  let BCi := Ebi ^^^ Egi ^^^ Eki ^^^ Emi ^^^ Esi
  let BCo := Ebo ^^^ Ego ^^^ Eko ^^^ Emo ^^^ Eso
  let BCu := Ebu ^^^ Egu ^^^ Eku ^^^ Emu ^^^ Esu
  let Da := BCu ^^^ rol BCe 1
  let De := BCa ^^^ rol BCi 1
  let Di := BCe ^^^ rol BCo 1
  let Do := BCi ^^^ rol BCu 1
  let Du := BCo ^^^ rol BCa 1
  let Eba := Eba ^^^ Da
  let BCa := Eba
  let Ege := Ege ^^^ De
  let BCe := rol Ege 44
  let Eki := Eki ^^^ Di
  let BCi := rol Eki 43
  let Emo := Emo ^^^ Do
  let BCo := rol Emo 21
  let Esu := Esu ^^^ Du
  let BCu := rol Esu 14
  let Aba := BCa ^^^ ((~~~BCe) &&& BCi)
  let Aba := Aba ^^^ rc
  let Abe := BCe ^^^ ((~~~BCi) &&& BCo)
  let Abi := BCi ^^^ ((~~~BCo) &&& BCu)
  let Abo := BCo ^^^ ((~~~BCu) &&& BCa)
  let Abu := BCu ^^^ ((~~~BCa) &&& BCe)
  let Ebo := Ebo ^^^ Do
  let BCa := rol Ebo 28
  let Egu := Egu ^^^ Du
  let BCe := rol Egu 20
  let Eka := Eka ^^^ Da
  let BCi := rol Eka 3
  let Eme := Eme ^^^ De
  let BCo := rol Eme 45
  let Esi := Esi ^^^ Di
  let BCu := rol Esi 61
  let Aga := BCa ^^^ ((~~~BCe) &&& BCi)
  let Age := BCe ^^^ ((~~~BCi) &&& BCo)
  let Agi := BCi ^^^ ((~~~BCo) &&& BCu)
  let Ago := BCo ^^^ ((~~~BCu) &&& BCa)
  let Agu := BCu ^^^ ((~~~BCa) &&& BCe)
  let Ebe := Ebe ^^^ De
  let BCa := rol Ebe 1
  let Egi := Egi ^^^ Di
  let BCe := rol Egi 6
  let Eko := Eko ^^^ Do
  let BCi := rol Eko 25
  let Emu := Emu ^^^ Du
  let BCo := rol Emu 8
  let Esa := Esa ^^^ Da
  let BCu := rol Esa 18
  let Aka := BCa ^^^ ((~~~BCe) &&& BCi)
  let Ake := BCe ^^^ ((~~~BCi) &&& BCo)
  let Aki := BCi ^^^ ((~~~BCo) &&& BCu)
  let Ako := BCo ^^^ ((~~~BCu) &&& BCa)
  let Aku := BCu ^^^ ((~~~BCa) &&& BCe)
  let Ebu := Ebu ^^^ Du
  let BCa := rol Ebu 27
  let Ega := Ega ^^^ Da
  let BCe := rol Ega 36
  let Eke := Eke ^^^ De
  let BCi := rol Eke 10
  let Emi := Emi ^^^ Di
  let BCo := rol Emi 15
  let Eso := Eso ^^^ Do
  let BCu := rol Eso 56
  let Ama := BCa ^^^ ((~~~BCe) &&& BCi)
  let Ame := BCe ^^^ ((~~~BCi) &&& BCo)
  let Ami := BCi ^^^ ((~~~BCo) &&& BCu)
  let Amo := BCo ^^^ ((~~~BCu) &&& BCa)
  let Amu := BCu ^^^ ((~~~BCa) &&& BCe)
  let Ebi := Ebi ^^^ Di
  let BCa := rol Ebi 62
  let Ego := Ego ^^^ Do
  let BCe := rol Ego 55
  let Eku := Eku ^^^ Du
  let BCi := rol Eku 39
  let Ema := Ema ^^^ Da
  let BCo := rol Ema 41
  let Ese := Ese ^^^ De
  let BCu := rol Ese 2
  let Asa := BCa ^^^ ((~~~BCe) &&& BCi)
  let Ase := BCe ^^^ ((~~~BCi) &&& BCo)
  let Asi := BCi ^^^ ((~~~BCo) &&& BCu)
  let Aso := BCo ^^^ ((~~~BCu) &&& BCa)
  let Asu := BCu ^^^ ((~~~BCa) &&& BCe)
  #v[Aba, Abe, Abi, Abo, Abu, Aga, Age, Agi, Ago, Agu, Aka, Ake, Aki, Ako, Aku, Ama, Ame, Ami, Amo, Amu, Asa, Ase, Asi, Aso, Asu]

/-- `KeccakF1600_StatePermute` (fips202.c:73-334); iteration `k` has `round = 2 k`. -/
def permute (s : Lanes) : Lanes :=
  (List.range 12).foldl (fun s k => halfE (roundConstants.getD (2 * k + 1) 0) (halfA (roundConstants.getD (2 * k) 0) s)) s

/-- `for (i = 0; i < r / 8; ++i) s[i] ^= load64(m + 8 * i)` (fips202.c:360-362, 377-379). -/
def xorWords (O : Oob) (r : Nat) (s : Lanes) (m : Bytes) : Lanes :=
  (List.range (r / 8)).foldl (fun s i => xorAt O s i (load64 O m (8 * i))) s

/-- The `while` loop of `keccak_absorb` (fips202.c:359-367): the state and the bytes left. -/
def absorbLoop (O : Oob) (r : Nat) : Nat → Lanes → Bytes → Option (Lanes × Bytes)
  | 0, _, _ => none
  | fuel + 1, s, m =>
    if m.length ≥ r then absorbLoop O r fuel (permute (xorWords O r s m)) (m.drop r) else some (s, m)

/-- The last block of `keccak_absorb`, the array `t` (fips202.c:369-376). -/
def lastBlock (O : Oob) (r : Nat) (m : Bytes) (p : UInt8) : Bytes :=
  let t := (List.range r).map fun i => if i < m.length then rdByte O m i else 0
  let t := t.set m.length p
  t.set (r - 1) (rdByte O t (r - 1) ||| 128)

/-- `keccak_absorb` (fips202.c:349-380). -/
def absorb (O : Oob) (r : Nat) (m : Bytes) (p : UInt8) : Option Lanes := do
  let (s, m) ← absorbLoop O r (m.length + 1) (Vector.replicate 25 0) m
  return xorWords O r s (lastBlock O r m p)

/-- `keccak_squeezeblocks` (fips202.c:395-405). -/
def squeezeBlocks (O : Oob) (r : Nat) : Nat → Lanes → Bytes × Lanes
  | 0, s => ([], s)
  | n + 1, s =>
    let s := permute s
    let h := (List.range (r / 8)).flatMap fun i => store64 (rd O s i)
    let (h', s) := squeezeBlocks O r n s
    (h ++ h', s)

/-- `uint64_t s_inc[26]`: the lanes and the counter. -/
structure Inc where
  s : Lanes
  cnt : Nat

/-- `keccak_inc_init` (fips202.c:417-424). -/
def incInit : Inc := ⟨Vector.replicate 25 0, 0⟩

/-- `for (i = 0; i < n; i++) s_inc[(s_inc[25] + i) >> 3] ^= (uint64_t)m[i] << (8 * ((s_inc[25] + i) & 0x07))` (fips202.c:446-450, 458-460). -/
def xorBytesAt (O : Oob) (s : Lanes) (cnt : Nat) (m : Bytes) (n : Nat) : Lanes :=
  (List.range n).foldl (fun s i => xorAt O s ((cnt + i) / 8) (toU64 (rdByte O m i) <<< (8 * ((cnt + i) % 8)))) s

/-- `keccak_inc_absorb` (fips202.c:440-462). -/
def incAbsorbLoop (O : Oob) (r : Nat) : Nat → Inc → Bytes → Option Inc
  | 0, _, _ => none
  | fuel + 1, c, m =>
    if m.length + c.cnt ≥ r then
      incAbsorbLoop O r fuel ⟨permute (xorBytesAt O c.s c.cnt m (r - c.cnt)), 0⟩ (m.drop (r - c.cnt))
    else some ⟨xorBytesAt O c.s c.cnt m m.length, c.cnt + m.length⟩

/-- `keccak_inc_absorb` (fips202.c:440-462). -/
def incAbsorb (O : Oob) (r : Nat) (c : Inc) (m : Bytes) : Option Inc := incAbsorbLoop O r (m.length + 2) c m

/-- `keccak_inc_finalize` (fips202.c:477-483). -/
def incFinalize (O : Oob) (r : Nat) (p : UInt8) (c : Inc) : Inc :=
  let s := xorAt O c.s (c.cnt / 8) (toU64 p <<< (8 * (c.cnt % 8)))
  let s := xorAt O s ((r - 1) / 8) ((128 : U64) <<< (8 * ((r - 1) % 8)))
  ⟨s, 0⟩

/-- `(uint8_t)(s_inc[i >> 3] >> (8 * (i & 0x07)))` (fips202.c:506, 517). -/
def byteOf (O : Oob) (s : Lanes) (i : Nat) : UInt8 := toU8 (rd O s (i / 8) >>> (8 * (i % 8)))

/-- The `while` loop of `keccak_inc_squeeze` (fips202.c:513-522). -/
def incSqueezeLoop (O : Oob) (r : Nat) : Nat → Nat → Inc → Option (Bytes × Inc)
  | 0, _, _ => none
  | fuel + 1, outlen, c =>
    if outlen > 0 then do
      let s := permute c.s
      let n := min outlen r
      let h := (List.range n).map (byteOf O s)
      let (h', c) ← incSqueezeLoop O r fuel (outlen - n) ⟨s, r - n⟩
      return (h ++ h', c)
    else some ([], c)

/-- `keccak_inc_squeeze` (fips202.c:498-523). -/
def incSqueeze (O : Oob) (r : Nat) (outlen : Nat) (c : Inc) : Option (Bytes × Inc) := do
  let n := min outlen c.cnt
  let h := (List.range n).map fun i => byteOf O c.s (r - c.cnt + i)
  let (h', c) ← incSqueezeLoop O r (outlen + 1) (outlen - n) { c with cnt := c.cnt - n }
  return (h ++ h', c)

/-- `SHAKE128_RATE`, `SHAKE256_RATE`, `SHA3_256_RATE`, `SHA3_384_RATE`, `SHA3_512_RATE` (fips202.h:7-11). -/
def shake128Rate : Nat := 168
@[inherit_doc shake128Rate] def shake256Rate : Nat := 136
@[inherit_doc shake128Rate] def sha3_256Rate : Nat := 136
@[inherit_doc shake128Rate] def sha3_384Rate : Nat := 104
@[inherit_doc shake128Rate] def sha3_512Rate : Nat := 72

/-- `shake128_inc_init` (fips202.c:525-527). -/
def shake128IncInit : Inc := incInit
/-- `shake128_inc_absorb` (fips202.c:529-531). -/
def shake128IncAbsorb (O : Oob) (c : Inc) (m : Bytes) : Option Inc := incAbsorb O shake128Rate c m
/-- `shake128_inc_finalize` (fips202.c:533-535). -/
def shake128IncFinalize (O : Oob) (c : Inc) : Inc := incFinalize O shake128Rate 0x1F c
/-- `shake128_inc_squeeze` (fips202.c:537-539). -/
def shake128IncSqueeze (O : Oob) (n : Nat) (c : Inc) : Option (Bytes × Inc) := incSqueeze O shake128Rate n c
/-- `shake256_inc_init` (fips202.c:549-551). -/
def shake256IncInit : Inc := incInit
/-- `shake256_inc_absorb` (fips202.c:553-555). -/
def shake256IncAbsorb (O : Oob) (c : Inc) (m : Bytes) : Option Inc := incAbsorb O shake256Rate c m
/-- `shake256_inc_finalize` (fips202.c:557-559). -/
def shake256IncFinalize (O : Oob) (c : Inc) : Inc := incFinalize O shake256Rate 0x1F c
/-- `shake256_inc_squeeze` (fips202.c:561-563). -/
def shake256IncSqueeze (O : Oob) (n : Nat) (c : Inc) : Option (Bytes × Inc) := incSqueeze O shake256Rate n c

/-- `shake128` (fips202.c:664-683). -/
def shake128 (O : Oob) (outlen : Nat) (inp : Bytes) : Option Bytes := do
  let nblocks := outlen / shake128Rate
  let s ← absorb O shake128Rate inp 0x1F
  let (out, s) := squeezeBlocks O shake128Rate nblocks s
  let rest := outlen - nblocks * shake128Rate
  if rest ≠ 0 then
    let (t, _) := squeezeBlocks O shake128Rate 1 s
    return out ++ (List.range rest).map (rdByte O t)
  else return out

/-- `shake256` (fips202.c:695-714). -/
def shake256 (O : Oob) (outlen : Nat) (inp : Bytes) : Option Bytes := do
  let nblocks := outlen / shake256Rate
  let s ← absorb O shake256Rate inp 0x1F
  let (out, s) := squeezeBlocks O shake256Rate nblocks s
  let rest := outlen - nblocks * shake256Rate
  if rest ≠ 0 then
    let (t, _) := squeezeBlocks O shake256Rate 1 s
    return out ++ (List.range rest).map (rdByte O t)
  else return out

/-- `sha3_256` (fips202.c:754-767). -/
def sha3_256 (O : Oob) (inp : Bytes) : Option Bytes := do
  let s ← absorb O sha3_256Rate inp 0x06
  let (t, _) := squeezeBlocks O sha3_256Rate 1 s
  return (List.range 32).map (rdByte O t)

/-- `sha3_384` (fips202.c:807-820). -/
def sha3_384 (O : Oob) (inp : Bytes) : Option Bytes := do
  let s ← absorb O sha3_384Rate inp 0x06
  let (t, _) := squeezeBlocks O sha3_384Rate 1 s
  return (List.range 48).map (rdByte O t)

/-- `sha3_512` (fips202.c:860-873). -/
def sha3_512 (O : Oob) (inp : Bytes) : Option Bytes := do
  let s ← absorb O sha3_512Rate inp 0x06
  let (t, _) := squeezeBlocks O sha3_512Rate 1 s
  return (List.range 64).map (rdByte O t)

/-- `sha3_256_inc_absorb` (fips202.c:728-730); `sha3_256_inc_init` is `incInit`. -/
def sha3_256IncAbsorb (O : Oob) (c : Inc) (m : Bytes) : Option Inc := incAbsorb O sha3_256Rate c m
/-- `sha3_256_inc_finalize` (fips202.c:732-743). -/
def sha3_256IncFinalize (O : Oob) (c : Inc) : Bytes :=
  let (t, _) := squeezeBlocks O sha3_256Rate 1 (incFinalize O sha3_256Rate 0x06 c).s
  (List.range 32).map (rdByte O t)
/-- `sha3_384_inc_absorb` (fips202.c:777-779). -/
def sha3_384IncAbsorb (O : Oob) (c : Inc) (m : Bytes) : Option Inc := incAbsorb O sha3_384Rate c m
/-- `sha3_384_inc_finalize` (fips202.c:785-796). -/
def sha3_384IncFinalize (O : Oob) (c : Inc) : Bytes :=
  let (t, _) := squeezeBlocks O sha3_384Rate 1 (incFinalize O sha3_384Rate 0x06 c).s
  (List.range 48).map (rdByte O t)
/-- `sha3_512_inc_absorb` (fips202.c:830-832). -/
def sha3_512IncAbsorb (O : Oob) (c : Inc) (m : Bytes) : Option Inc := incAbsorb O sha3_512Rate c m
/-- `sha3_512_inc_finalize` (fips202.c:838-849). -/
def sha3_512IncFinalize (O : Oob) (c : Inc) : Bytes :=
  let (t, _) := squeezeBlocks O sha3_512Rate 1 (incFinalize O sha3_512Rate 0x06 c).s
  (List.range 64).map (rdByte O t)

end Verif.Keccak
