import Verif.Base

/-!
# Hash functions and signature schemes, executable in the kernel

Only used to replay tests of /repo which contain real hashes, signatures and certificates. No theorem depends on
this file: in the model these functions are parameters (`Ext`, `Cfg.keccak`, `Cfg.ecRecover`).
-/

namespace Verif.Conf

/-- Continue with the value of a number (makes evaluation in the kernel strict). -/
@[specialize] def force {α : Type} (n : Nat) (k : Nat → α) : α :=
  match n with
  | 0 => k 0
  | m + 1 => k (m + 1)

/-- The `n` low bytes of a number, least significant first. -/
def leBytes : Nat → Nat → Bytes
  | 0, _ => []
  | n + 1, v => force (v % 256) fun d => force (v / 256) fun q => UInt8.ofNat d :: leBytes n q

/-- The `n` low bytes of a number, most significant first. -/
def beBytes (n v : Nat) : Bytes := (leBytes n v).reverse

/-- The number with these big endian bytes. -/
def ofBe (l : Bytes) : Nat := go l 0
where
  go : Bytes → Nat → Nat
    | [], acc => acc
    | b :: bs, acc => force (acc * 256 + b.toNat) fun x => go bs x

-- From here on, `+ - * / % >>> <<<` are the functions of `Nat` themselves, which the kernel evaluates directly.
local macro_rules
  | `($x + $y) => `(Nat.add $x $y)
local macro_rules
  | `($x - $y) => `(Nat.sub $x $y)
local macro_rules
  | `($x * $y) => `(Nat.mul $x $y)
local macro_rules
  | `($x / $y) => `(Nat.div $x $y)
local macro_rules
  | `($x % $y) => `(Nat.mod $x $y)
local macro_rules
  | `($x >>> $y) => `(Nat.shiftRight $x $y)
local macro_rules
  | `($x <<< $y) => `(Nat.shiftLeft $x $y)

/-! ### SHA-256 (FIPS 180-4) -/

def m32 : Nat := 2 ^ 32
/-- A word doubled, so that rotations are shifts. -/
def dbl (x : Nat) : Nat := x * 0x100000001
def rot (x n : Nat) : Nat := (x >>> n) % 0x100000000

def sigma0 (x : Nat) : Nat := force (dbl x) fun d => ((rot d 7).xor (rot d 18)).xor (x >>> 3)
def sigma1 (x : Nat) : Nat := force (dbl x) fun d => ((rot d 17).xor (rot d 19)).xor (x >>> 10)
def Sigma0 (x : Nat) : Nat := force (dbl x) fun d => ((rot d 2).xor (rot d 13)).xor (rot d 22)
def Sigma1 (x : Nat) : Nat := force (dbl x) fun d => ((rot d 6).xor (rot d 11)).xor (rot d 25)
def ch (x y z : Nat) : Nat := z.xor (x.land (y.xor z))
def maj (x y z : Nat) : Nat := (x.land y).lor (z.land (x.lor y))

def sha256K : List Nat := [
  0x428a2f98, 0x71374491, 0xb5c0fbcf, 0xe9b5dba5, 0x3956c25b, 0x59f111f1, 0x923f82a4, 0xab1c5ed5,
  0xd807aa98, 0x12835b01, 0x243185be, 0x550c7dc3, 0x72be5d74, 0x80deb1fe, 0x9bdc06a7, 0xc19bf174,
  0xe49b69c1, 0xefbe4786, 0x0fc19dc6, 0x240ca1cc, 0x2de92c6f, 0x4a7484aa, 0x5cb0a9dc, 0x76f988da,
  0x983e5152, 0xa831c66d, 0xb00327c8, 0xbf597fc7, 0xc6e00bf3, 0xd5a79147, 0x06ca6351, 0x14292967,
  0x27b70a85, 0x2e1b2138, 0x4d2c6dfc, 0x53380d13, 0x650a7354, 0x766a0abb, 0x81c2c92e, 0x92722c85,
  0xa2bfe8a1, 0xa81a664b, 0xc24b8b70, 0xc76c51a3, 0xd192e819, 0xd6990624, 0xf40e3585, 0x106aa070,
  0x19a4c116, 0x1e376c08, 0x2748774c, 0x34b0bcb5, 0x391c0cb3, 0x4ed8aa4a, 0x5b9cca4f, 0x682e6ff3,
  0x748f82ee, 0x78a5636f, 0x84c87814, 0x8cc70208, 0x90befffa, 0xa4506ceb, 0xbef9a3f7, 0xc67178f2]

/-- The rounds of one block. The window holds the next 16 words of the message schedule as digits of one number,
the next word lowest. -/
def sha256Rounds : List Nat → Nat → Nat → Nat → Nat → Nat → Nat → Nat → Nat → Nat → List Nat
  | [], _, a, b, c, d, e, f, g, h => [a, b, c, d, e, f, g, h]
  | k :: ks, w, a, b, c, d, e, f, g, h =>
    force (w % 0x100000000) fun w0 =>
    force (h + Sigma1 e + ch e f g + k + w0) fun t1 =>
    force ((t1 + Sigma0 a + maj a b c) % 0x100000000) fun a' =>
    force ((d + t1) % 0x100000000) fun e' =>
    force ((w0 + sigma0 ((w >>> 32) % 0x100000000) + (w >>> 288) % 0x100000000 + sigma1 ((w >>> 448) % 0x100000000))
      % 0x100000000) fun nw =>
    force ((w >>> 32) + (nw <<< 480)) fun w' =>
    sha256Rounds ks w' a' a b c e' e f g

/-- The words of a block, first word lowest. -/
def blockWords (n : Nat) (block : Nat) : Nat := go n block 0
where
  go : Nat → Nat → Nat → Nat
    | 0, _, acc => acc
    | k + 1, v, acc => force (acc * 0x100000000 + v % 0x100000000) fun acc' => force (v >>> 32) fun v' => go k v' acc'

/-- All blocks of a padded message. -/
def sha256Blocks : Nat → Bytes → List Nat → List Nat
  | 0, _, st => st
  | n + 1, msg, st =>
    force (ofBe (msg.take 64)) fun blk =>
    match st with
    | [a, b, c, d, e, f, g, h] =>
      match sha256Rounds sha256K (blockWords 16 blk) a b c d e f g h with
      | [a', b', c', d', e', f', g', h'] =>
        force ((a + a') % m32) fun a => force ((b + b') % m32) fun b => force ((c + c') % m32) fun c =>
        force ((d + d') % m32) fun d => force ((e + e') % m32) fun e => force ((f + f') % m32) fun f =>
        force ((g + g') % m32) fun g => force ((h + h') % m32) fun h =>
        sha256Blocks n (msg.drop 64) [a, b, c, d, e, f, g, h]
      | _ => []
    | _ => []

/-- SHA-256 as a number. -/
def sha256Nat (l : Bytes) : Nat :=
  force l.length fun len =>
  force ((len + 8) / 64 + 1) fun blocks =>
  (sha256Blocks blocks (l ++ 128 :: List.replicate (64 * blocks - len - 9) 0 ++ beBytes 8 (8 * len))
    [0x6a09e667, 0xbb67ae85, 0x3c6ef372, 0xa54ff53a, 0x510e527f, 0x9b05688c, 0x1f83d9ab,
    0x5be0cd19]).foldl (fun acc x => acc * 0x100000000 + x) 0

def sha256 (l : Bytes) : Bytes := beBytes 32 (sha256Nat l)

/-- Test vector of FIPS 180-4: "abc". -/
example : sha256Nat [97, 98, 99] = 0xba7816bf8f01cfea414140de5dae2223b00361a396177a9cb410ff61f20015ad := by
  decide +kernel

/-! ### Keccak-256 (the hash of Ethereum)

The state is kept as five planes of 320 bits. -/

def m320 : Nat := 2 ^ 320

/-- The 64 bit lane at bit `pos` of a plane, rotated left by `r`, moved to bit `to`. -/
def lane (p pos r to : Nat) : Nat :=
  (((((p >>> pos) % 0x10000000000000000) * 0x10000000000000001) >>> (64 - r)) % 0x10000000000000000) <<< to

/-- A plane rotated by whole lanes, to the left by `n` bits. -/
def turn (p n : Nat) : Nat := force ((p <<< n) % m320) fun a => a.lor (p >>> (320 - n))

/-- The lowest bit of each lane. -/
def lowBits : Nat := 0x00000000000000010000000000000001000000000000000100000000000000010000000000000001

/-- Each lane rotated left by one. -/
def rol1 (p : Nat) : Nat :=
  (((p <<< 1) % m320).land (m320 - 1 - lowBits)).lor ((p >>> 63).land lowBits)

def chi (p : Nat) : Nat := p.xor ((m320 - 1 - turn p 256).land (turn p 192))

def keccakRC : List Nat := [
  0x0000000000000001, 0x0000000000008082, 0x800000000000808A, 0x8000000080008000, 0x000000000000808B,
  0x0000000080000001, 0x8000000080008081, 0x8000000000008009, 0x000000000000008A, 0x0000000000000088,
  0x0000000080008009, 0x000000008000000A, 0x000000008000808B, 0x800000000000008B, 0x8000000000008089,
  0x8000000000008003, 0x8000000000008002, 0x8000000000000080, 0x000000000000800A, 0x800000008000000A,
  0x8000000080008081, 0x8000000000008080, 0x0000000080000001, 0x8000000080008008]

/-- The rounds of the permutation, and what is done with the planes afterwards. -/
def keccakRounds {α : Type} (k : Nat → Nat → Nat → Nat → Nat → α) : List Nat → Nat → Nat → Nat → Nat → Nat → α
  | [], p0, p1, p2, p3, p4 => k p0 p1 p2 p3 p4
  | rc :: rcs, p0, p1, p2, p3, p4 =>
    force ((((p0.xor p1).xor p2).xor p3).xor p4) fun c =>
    force ((turn c 64).xor (turn (rol1 c) 256)) fun d =>
    force (p0.xor d) fun p0 => force (p1.xor d) fun p1 => force (p2.xor d) fun p2 =>
    force (p3.xor d) fun p3 => force (p4.xor d) fun p4 =>
    force (((((lane p0 0 0 0).lor (lane p1 64 44 64)).lor (lane p2 128 43 128)).lor
      (lane p3 192 21 192)).lor (lane p4 256 14 256)) fun q0 =>
    force (((((lane p0 192 28 0).lor (lane p1 256 20 64)).lor (lane p2 0 3 128)).lor
      (lane p3 64 45 192)).lor (lane p4 128 61 256)) fun q1 =>
    force (((((lane p0 64 1 0).lor (lane p1 128 6 64)).lor (lane p2 192 25 128)).lor
      (lane p3 256 8 192)).lor (lane p4 0 18 256)) fun q2 =>
    force (((((lane p0 256 27 0).lor (lane p1 0 36 64)).lor (lane p2 64 10 128)).lor
      (lane p3 128 15 192)).lor (lane p4 192 56 256)) fun q3 =>
    force (((((lane p0 128 62 0).lor (lane p1 192 55 64)).lor (lane p2 256 39 128)).lor
      (lane p3 0 41 192)).lor (lane p4 64 2 256)) fun q4 =>
    force ((chi q0).xor rc) fun p0 => force (chi q1) fun p1 => force (chi q2) fun p2 =>
    force (chi q3) fun p3 => force (chi q4) fun p4 =>
    keccakRounds k rcs p0 p1 p2 p3 p4

/-- Absorb blocks of 136 bytes of a padded message, and squeeze 32 bytes. -/
def absorb : Nat → Bytes → Nat → Nat → Nat → Nat → Nat → Bytes
  | 0, _, p0, _, _, _, _ => leBytes 32 p0
  | n + 1, l, p0, p1, p2, p3, p4 =>
    force (ofBe (l.take 136).reverse) fun b =>
    force (p0.xor (b % m320)) fun p0 => force (p1.xor ((b >>> 320) % m320)) fun p1 =>
    force (p2.xor ((b >>> 640) % m320)) fun p2 => force (p3.xor (b >>> 960)) fun p3 =>
    keccakRounds (absorb n (l.drop 136)) keccakRC p0 p1 p2 p3 p4

def keccakPad (n : Nat) : Bytes := if n = 1 then [0x81] else 1 :: List.replicate (n - 2) 0 ++ [0x80]

def keccak256 (l : Bytes) : Bytes :=
  force (l.length / 136 + 1) fun blocks =>
  absorb blocks (l ++ keccakPad (136 * blocks - l.length)) 0 0 0 0 0

/-- Keccak-256 of the empty message, and of "abc". -/
example : ofBe (keccak256 []) = 0xc5d2460186f7233c927e7db2dcc703c0e500b653ca82273b7bfad8045d85a470 := by
  decide +kernel
example : ofBe (keccak256 [97, 98, 99]) =
    0x4e03657aea45a94fc7d47ba826c8d667c0d1e6e33a64a036ec44f58fa12d6c45 := by decide +kernel

/-! ### Modular arithmetic, RSA -/

/-- `b ^ e * acc` modulo `m`; the first argument bounds the number of bits of the exponent. -/
def powMod : Nat → Nat → Nat → Nat → Nat → Nat
  | 0, _, _, _, acc => acc
  | n + 1, m, b, e, acc =>
    if e = 0 then acc
    else
      force (if e % 2 = 1 then acc * b % m else acc) fun acc =>
      force (b * b % m) fun b => force (e / 2) fun e => powMod n m b e acc

/-- RSASSA-PKCS1-v1_5 with SHA-256 and exponent 65537 (RFC 8017, 8.2.2). -/
def rsaVerify (modulus : Bytes) (data sig : Bytes) : Bool :=
  force (ofBe modulus) fun n => force (ofBe sig) fun s =>
  force (modulus.length) fun k =>
  sig.length == k && decide (s < n) &&
  powMod 17 n s 65537 1 ==
    (256 ^ (k - 54) * 2 - 1) * 256 ^ 52 + 0x3031300d060960864801650304020105000420 * 256 ^ 32 + sha256Nat data

/-! ### Elliptic curves: ECDSA verification and key recovery (SEC 1) -/

structure Curve where
  p : Nat
  a : Nat
  b : Nat
  n : Nat
  gx : Nat
  gy : Nat

def p256 : Curve where
  p := 0xffffffff00000001000000000000000000000000ffffffffffffffffffffffff
  a := 0xffffffff00000001000000000000000000000000fffffffffffffffffffffffc
  b := 0x5ac635d8aa3a93e7b3ebbd55769886bc651d06b0cc53b0f63bce3c3e27d2604b
  n := 0xffffffff00000000ffffffffffffffffbce6faada7179e84f3b9cac2fc632551
  gx := 0x6b17d1f2e12c4247f8bce6e563a440f277037d812deb33a0f4a13945d898c296
  gy := 0x4fe342e2fe1a7f9b8ee7eb4a7c0f9e162bce33576b315ececbb6406837bf51f5

def secp256k1 : Curve where
  p := 0xfffffffffffffffffffffffffffffffffffffffffffffffffffffffefffffc2f
  a := 0
  b := 7
  n := 0xfffffffffffffffffffffffffffffffebaaedce6af48a03bbfd25e8cd0364141
  gx := 0x79be667ef9dcbbac55a06295ce870b07029bfcdb2dce28d959f2815b16f81798
  gy := 0x483ada7726a3c4655da4fbfc0e1108a8fd17b448a68554199c47d08ffb10d4b8

/-- A point in Jacobian coordinates; `z = 0` is the point at infinity. -/
structure Pt where
  x : Nat
  y : Nat
  z : Nat

def mkPt (x y z : Nat) : Pt := force x fun x => force y fun y => force z fun z => ⟨x, y, z⟩

def Pt.double (a p : Nat) : Pt → Pt
  | ⟨x, y, z⟩ =>
    force (y * y % p) fun yy => force (4 * x * yy % p) fun s => force (z * z % p) fun zz =>
    force ((3 * x * x + a * (zz * zz % p)) % p) fun m =>
    force ((m * m + 2 * p - 2 * s) % p) fun x' =>
    mkPt x' ((m * (s + p - x') + 8 * p * p - 8 * (yy * yy)) % p) (2 * y * z % p)

def Pt.add (a p : Nat) : Pt → Pt → Pt
  | ⟨x1, y1, z1⟩, ⟨x2, y2, z2⟩ =>
    if z1 = 0 then ⟨x2, y2, z2⟩
    else if z2 = 0 then ⟨x1, y1, z1⟩
    else
      force (z1 * z1 % p) fun zz1 => force (z2 * z2 % p) fun zz2 =>
      force (x1 * zz2 % p) fun u1 => force (x2 * zz1 % p) fun u2 =>
      force (y1 * (z2 * zz2 % p) % p) fun s1 => force (y2 * (z1 * zz1 % p) % p) fun s2 =>
      if u1 = u2 then if s1 = s2 then Pt.double a p ⟨x1, y1, z1⟩ else ⟨0, 1, 0⟩
      else
        force ((u2 + p - u1) % p) fun h => force ((s2 + p - s1) % p) fun r =>
        force (h * h % p) fun hh => force (h * hh % p) fun hhh => force (u1 * hh % p) fun v =>
        force ((r * r + 3 * p - hhh - 2 * v) % p) fun x' =>
        mkPt x' ((r * (v + p - x') + p * p - s1 * hhh) % p) (h * (z1 * z2 % p) % p)

/-- `u P + v Q` with `s = P + Q`, going through the top `k` bits. -/
def Pt.mul2 (a p : Nat) (P Q S : Pt) (u v : Nat) : Nat → Pt → Pt
  | 0, acc => acc
  | k + 1, acc =>
    let acc := acc.double a p
    let bu := (u >>> k) % 2
    let bv := (v >>> k) % 2
    Pt.mul2 a p P Q S u v k
      (if bu = 1 then if bv = 1 then acc.add a p S else acc.add a p P
       else if bv = 1 then acc.add a p Q else acc)

def inv (m x : Nat) : Nat := powMod 256 m x (m - 2) 1

def Pt.affine (p : Nat) : Pt → Option (Nat × Nat)
  | ⟨x, y, z⟩ =>
    if z = 0 then none
    else
      force (inv p z) fun i => force (i * i % p) fun ii =>
      force (x * ii % p) fun x => force (y * (i * ii % p) % p) fun y => some (x, y)

def Curve.mul2 (c : Curve) (P Q : Pt) (u v : Nat) : Option (Nat × Nat) :=
  (Pt.mul2 c.a c.p P Q (P.add c.a c.p Q) u v 256 ⟨0, 1, 0⟩).affine c.p

def Curve.g (c : Curve) : Pt := ⟨c.gx, c.gy, 1⟩

/-- ECDSA verification; the key as 64 bytes `x`, `y`, the signature as 64 bytes `r`, `s`, the hash as a number. -/
def Curve.verify (c : Curve) (key : Bytes) (hash : Nat) (sig : Bytes) : Bool :=
  force (ofBe (key.take 32)) fun x => force (ofBe (key.drop 32)) fun y =>
  force (ofBe (sig.take 32)) fun r => force (ofBe (sig.drop 32)) fun s =>
  key.length == 64 && sig.length == 64 && r != 0 && s != 0 && decide (r < c.n) && decide (s < c.n) &&
    y * y % c.p == (x * x * x + c.a * x + c.b) % c.p &&
    force (inv c.n s) fun w =>
    force (hash * w % c.n) fun u => force (r * w % c.n) fun v =>
      match c.mul2 c.g ⟨x, y, 1⟩ u v with
      | some q => q.1 % c.n == r
      | none => false

/-- Key recovery; the signature as 65 bytes `r`, `s`, recovery id (0, 1, or 27, 28). Recovery ids 2 and 3, which
real signatures never have, are not supported. -/
def Curve.recover (c : Curve) (hash : Nat) (sig : Bytes) : Option Bytes :=
  force (ofBe (sig.take 32)) fun r => force (ofBe ((sig.drop 32).take 32)) fun s =>
  force (ofBe (sig.drop 64)) fun v => force (if v > 26 then v - 27 else v) fun v =>
  if r = 0 || s = 0 || decide (c.n ≤ r) || decide (c.n ≤ s) || decide (1 < v) then none
  else
    force ((r * r * r + c.a * r + c.b) % c.p) fun yy =>
    force (powMod 256 c.p yy ((c.p + 1) / 4) 1) fun y0 =>
    if y0 * y0 % c.p = yy then
      force (if y0 % 2 = v then y0 else c.p - y0) fun y =>
      force (inv c.n r) fun ri =>
      force ((c.n - hash % c.n) * ri % c.n) fun u => force (s * ri % c.n) fun w =>
      match c.mul2 c.g ⟨r, y, 1⟩ u w with
      | some q => some (beBytes 32 q.1 ++ beBytes 32 q.2)
      | none => none
    else none

end Verif.Conf
