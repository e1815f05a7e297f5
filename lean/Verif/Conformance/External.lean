import Verif.Conformance.Crypto
import Verif.Model.SgxVerify

/-!
# The external functions of sgx-verify, executable in the kernel

A concrete value of `Ext`: base64, JSON, dates, DER certificates, signatures and certificate chains, good enough for
the real attestation data in /repo. It is used to run the model on that data. The theorems do not depend on this
file; they hold for every value of `Ext`.

Not covered: key usages, basic constraints and name constraints of certificates, algorithms other than the ones
Intel uses, JSON escapes with `\u`, numbers with fraction or exponent, years before 1970.
-/

namespace Verif.Conf

/-! ### Data written as hexadecimal numbers -/

/-- A piece of data: the number of bytes and the bytes as a number. -/
def unhex (l : List (Nat × Nat)) : Bytes := l.flatMap fun p => beBytes p.1 p.2

/-! ### base64 (standard alphabet, padding required) -/

def b64Digit (b : UInt8) : Option Nat :=
  force b.toNat fun n =>
  if Nat.ble 65 n && Nat.ble n 90 then some (n - 65)
  else if Nat.ble 97 n && Nat.ble n 122 then some (n - 71)
  else if Nat.ble 48 n && Nat.ble n 57 then some (n + 4)
  else if Nat.beq n 43 then some 62
  else if Nat.beq n 47 then some 63
  else none

/-- Fails unless the length is a multiple of four and the unused bits of the last digit are zero. -/
def base64Decode : Bytes → Option Bytes
  | [] => some []
  | a :: b :: c :: d :: r =>
    match b64Digit a, b64Digit b with
    | some a, some b =>
      if c = 61 && d = 61 then
        if r.isEmpty && b % 16 = 0 then some [UInt8.ofNat (a * 4 + b / 16)] else none
      else match b64Digit c with
        | some c =>
          if d = 61 then
            if r.isEmpty && c % 4 = 0 then
              some [UInt8.ofNat (a * 4 + b / 16), UInt8.ofNat (b % 16 * 16 + c / 4)] else none
          else match b64Digit d with
            | some d =>
              match base64Decode r with
              | some l => some (UInt8.ofNat (a * 4 + b / 16) :: UInt8.ofNat (b % 16 * 16 + c / 4) ::
                  UInt8.ofNat (c % 4 * 64 + d) :: l)
              | none => none
            | none => none
        | none => none
    | _, _ => none
  | _ => none

example : base64Decode [84, 87, 69, 61] = some [77, 97] := by decide +kernel

/-! ### Dates -/

/-- A decimal number without sign. -/
def decimal (l : List Char) : Option Nat :=
  l.foldlM (fun acc ch =>
    if 48 ≤ ch.toNat && ch.toNat ≤ 57 then some (acc * 10 + (ch.toNat - 48)) else none) 0

/-- Days since 1 January 1970 of a date of the Gregorian calendar. -/
def days (y m d : Nat) : Nat :=
  let y' := if m ≤ 2 then y - 1 else y
  let mp := (m + 9) % 12
  365 * y' + y' / 4 - y' / 100 + y' / 400 + (153 * mp + 2) / 5 + d - 1 - 719468

/-- `YYYY-MM-DDThh:mm:ss` and the rest of the text; the result in seconds. -/
def dateTime (l : List Char) : Option (Nat × List Char) :=
  match l with
  | y0 :: y1 :: y2 :: y3 :: '-' :: m0 :: m1 :: '-' :: d0 :: d1 :: 'T' :: h0 :: h1 :: ':' :: i0 :: i1 :: ':' :: s0 ::
      s1 :: r => do
    let y ← decimal [y0, y1, y2, y3]
    let m ← decimal [m0, m1]
    let d ← decimal [d0, d1]
    let h ← decimal [h0, h1]
    let i ← decimal [i0, i1]
    let s ← decimal [s0, s1]
    if 1970 ≤ y && 1 ≤ m && m ≤ 12 && 1 ≤ d && d ≤ 31 && h ≤ 23 && i ≤ 59 && s ≤ 59 then
      some (days y m d * 86400 + h * 3600 + i * 60 + s, r)
    else none
  | _ => none

/-- RFC 3339 in UTC without fractions of seconds, in milliseconds. -/
def parseDate (s : String) : Option Int :=
  match dateTime s.toList with
  | some (t, ['Z']) => some ((t : Int) * 1000)
  | _ => none

/-- The format `%Y-%m-%dT%H:%M:%S%.f%z` with offset zero, in seconds. -/
def parseTime (s : String) : Option Int :=
  match dateTime s.toList with
  | some (t, r) =>
    if r = ['+', '0', '0', '0', '0'] then some (t : Int)
    else match r with
      | '.' :: r => if r.dropWhile (fun ch => 48 ≤ ch.toNat && ch.toNat ≤ 57) = ['+', '0', '0', '0', '0']
          then some (t : Int) else none
      | _ => none
  | none => none

example : parseTime "2020-04-26T11:16:25.330000+0000" = some 1587899785 := by decide +kernel
example : parseDate "2023-04-16T12:45:32Z" = some 1681649132000 := by decide +kernel

/-! ### JSON -/

/-- The rest of a string literal after the opening quote: its characters, whether there was an escape, and what
follows. ASCII only. -/
def jsonString : Bytes → Option (List Char × Bool × Bytes)
  | [] => none
  | b :: r =>
    force b.toNat fun n =>
    if Nat.beq n 34 then some ([], false, r)
    else if Nat.beq n 92 then
      match r with
      | [] => none
      | e :: r =>
        let ch := match e.toNat with
          | 34 => some '"' | 92 => some '\\' | 47 => some '/' | 98 => some (Char.ofNat 8)
          | 102 => some (Char.ofNat 12) | 110 => some '\n' | 114 => some '\r' | 116 => some '\t' | _ => none
        match ch, jsonString r with
        | some ch, some (l, _, r) => some (ch :: l, true, r)
        | _, _ => none
    else if Nat.ble n 31 || Nat.ble 128 n then none
    else match jsonString r with
      | some (l, e, r) => some (Char.ofNat n :: l, e, r)
      | none => none

def jsonSpace : Bytes → Bytes
  | [] => []
  | b :: r => if b = 32 || b = 10 || b = 13 || b = 9 then jsonSpace r else b :: r

/-- The digits at the front as a number, the number of digits, and what follows. -/
def digits : Bytes → Nat → Nat → Nat × Nat × Bytes
  | [], acc, k => (acc, k, [])
  | b :: r, acc, k =>
    if 48 ≤ b.toNat && b.toNat ≤ 57 then
      force (acc * 10 + (b.toNat - 48)) fun acc => force (k + 1) fun k => digits r acc k
    else (acc, k, b :: r)

mutual
/-- A value; the first argument bounds the depth of the recursion. -/
def jsonValue : Nat → Bytes → Option (Json × Bytes)
  | 0, _ => none
  | n + 1, l =>
    match jsonSpace l with
    | [] => none
    | b :: r =>
      match b.toNat with
      | 34 => match jsonString r with
        | some (s, e, r) => some (.str (String.ofList s) e, r)
        | none => none
      | 123 =>
        match jsonSpace r with
        | 125 :: r => some (.obj [], r)
        | r => match jsonMembers n r with
          | some (l, r) => some (.obj l, r)
          | none => none
      | 91 =>
        match jsonSpace r with
        | 93 :: r => some (.arr [], r)
        | r => match jsonItems n r with
          | some (l, r) => some (.arr l, r)
          | none => none
      | 116 => match r with | 114 :: 117 :: 101 :: r => some (.bool true, r) | _ => none
      | 102 => match r with | 97 :: 108 :: 115 :: 101 :: r => some (.bool false, r) | _ => none
      | 110 => match r with | 117 :: 108 :: 108 :: r => some (.null, r) | _ => none
      | 45 => match digits r 0 0 with
        | (v, k, r) => if k = 0 then none else some (.int (-(v : Int)), r)
      | _ => match digits (b :: r) 0 0 with
        | (v, k, r) => if k = 0 then none else some (.int v, r)
def jsonMembers : Nat → Bytes → Option (List (String × Json) × Bytes)
  | 0, _ => none
  | n + 1, l =>
    match jsonSpace l with
    | 34 :: r =>
      match jsonString r with
      | some (s, _, r) =>
        match jsonSpace r with
        | 58 :: r =>
          match jsonValue n r with
          | some (v, r) =>
            match jsonSpace r with
            | 44 :: r => match jsonMembers n r with
              | some (m, r) => some ((String.ofList s, v) :: m, r)
              | none => none
            | 125 :: r => some ([(String.ofList s, v)], r)
            | _ => none
          | none => none
        | _ => none
      | none => none
    | _ => none
def jsonItems : Nat → Bytes → Option (List Json × Bytes)
  | 0, _ => none
  | n + 1, l =>
    match jsonValue n l with
    | some (v, r) =>
      match jsonSpace r with
      | 44 :: r => match jsonItems n r with
        | some (m, r) => some (v :: m, r)
        | none => none
      | 93 :: r => some ([v], r)
      | _ => none
    | none => none
end

/-- A whole text. Integers outside of 64 bits are not treated. -/
def json (l : Bytes) : Option Json :=
  match jsonValue 200 l with
  | some (j, r) => if (jsonSpace r).isEmpty then some j else none
  | none => none

/-! ### DER and X.509 certificates -/

/-- Tag, content and what follows. The content with the header is `whole`. -/
structure Tlv where
  tag : Nat
  content : Bytes
  rest : Bytes
  whole : Bytes

def tlv (l : Bytes) : Option Tlv :=
  match l with
  | t :: n :: r =>
    force n.toNat fun n =>
    if Nat.ble n 127 then
      if n ≤ r.length then some ⟨t.toNat, r.take n, r.drop n, l.take (n + 2)⟩ else none
    else force (n - 128) fun k =>
      force (ofBe (r.take k)) fun n =>
      if n + k ≤ r.length then some ⟨t.toNat, (r.drop k).take n, r.drop (k + n), l.take (n + k + 2)⟩ else none
  | _ => none

/-- All elements of a sequence; the first argument bounds their number. -/
def tlvs : Nat → Bytes → Option (List Tlv)
  | 0, l => if l.isEmpty then some [] else none
  | n + 1, l => if l.isEmpty then some [] else
    match tlv l with
    | some t => (tlvs n t.rest).map (t :: ·)
    | none => none

/-- What is used of a certificate. Times are in seconds. -/
structure Cert where
  tbs : Bytes
  issuer : Bytes
  notBefore : Nat
  notAfter : Nat
  subject : Bytes
  key : Bytes
  extensions : List (Bytes × Bytes)
  alg : Bytes
  signature : Bytes

def chars (l : Bytes) : List Char := l.map fun b => Char.ofNat b.toNat

/-- UTCTime (tag 23, two digits of the year) or GeneralizedTime (tag 24), in seconds. -/
def asn1Time (t : Tlv) : Option Nat :=
  let l := if t.tag = 23 then
      (if 53 ≤ (t.content.headD 0).toNat then ['1', '9'] else ['2', '0']) ++ chars t.content
    else chars t.content
  match l with
  | [y0, y1, y2, y3, m0, m1, d0, d1, h0, h1, i0, i1, s0, s1, 'Z'] =>
    (dateTime [y0, y1, y2, y3, '-', m0, m1, '-', d0, d1, 'T', h0, h1, ':', i0, i1, ':', s0, s1]).map (·.1)
  | _ => none

/-- The extensions: object identifier, optional critical flag, value. -/
def extensions (l : Bytes) : Option (List (Bytes × Bytes)) := do
  let s ← tlv l
  let es ← tlvs 30 s.content
  es.mapM fun e => do
    match ← tlvs 3 e.content with
    | [o, v] => some (o.content, v.content)
    | [o, _, v] => some (o.content, v.content)
    | _ => none

def parseCert (der : Bytes) : Option Cert := do
  let c ← tlv der
  if c.tag ≠ 48 || !c.rest.isEmpty then none
  match ← tlvs 3 c.content with
  | [tbs, alg, sig] =>
    match ← tlvs 8 tbs.content with
    | [_version, _serial, _alg, issuer, validity, subject, key, ext] =>
      match ← tlvs 2 validity.content with
      | [nb, na] =>
        let notBefore ← asn1Time nb
        let notAfter ← asn1Time na
        let extensions ← extensions ext.content
        some { tbs := tbs.whole, issuer := issuer.content, notBefore, notAfter, subject := subject.content,
               key := key.content, extensions, alg := alg.content, signature := sig.content.drop 1 }
      | _ => none
    | _ => none
  | _ => none

/-! ### Signatures -/

/-- id-ecPublicKey with prime256v1, and the start of the bit string with an uncompressed point. -/
def p256Spki : Bytes := unhex [(25, 0x301306072a8648ce3d020106082a8648ce3d03010703420004)]
/-- rsaEncryption. -/
def rsaSpki : Bytes := unhex [(15, 0x300d06092a864886f70d0101010500)]

/-- The two numbers of an ECDSA signature in DER, as 64 bytes. -/
def ecdsaSig (der : Bytes) : Option Bytes := do
  let s ← tlv der
  match ← tlvs 2 s.content with
  | [r, s] => force (ofBe r.content) fun r => force (ofBe s.content) fun s =>
      if r < 2 ^ 256 && s < 2 ^ 256 then some (beBytes 32 r ++ beBytes 32 s) else none
  | _ => none

/-- Modulus of an RSA key with exponent 65537, from the content of the public key info. -/
def rsaModulus (key : Bytes) : Option Bytes := do
  if key.take 15 ≠ rsaSpki then none
  let bits ← tlv (key.drop 15)
  let seq ← tlv (bits.content.drop 1)
  match ← tlvs 2 seq.content with
  | [n, e] => if e.content = [1, 0, 1] then some (n.content.drop 1) else none
  | _ => none

/-- A signature made with the key in some public key info. -/
def verifyWith (key : Bytes) (alg : SigAlg) (data sig : Bytes) : Bool :=
  match alg with
  | .ecdsaP256Sha256 =>
    match ecdsaSig sig with
    | some s => key.take 25 = p256Spki && p256.verify (key.drop 25) (sha256Nat data) s
    | none => false
  | .rsaPkcs1Sha256 =>
    match rsaModulus key with
    | some n => rsaVerify n data sig
    | none => false

/-- ecdsa-with-SHA256 and sha256WithRSAEncryption as algorithm identifiers. -/
def sigAlg (alg : Bytes) : Option SigAlg :=
  if alg = unhex [(10, 0x06082a8648ce3d040302)] then some .ecdsaP256Sha256
  else if alg = unhex [(13, 0x06092a864886f70d01010b0500)] then some .rsaPkcs1Sha256
  else none

/-- The certificate is valid at the time and signed with the key. -/
def signedBy (c : Cert) (key : Bytes) (time : Nat) : Bool :=
  c.notBefore ≤ time && time ≤ c.notAfter &&
    match sigAlg c.alg with
    | some a => verifyWith key a c.tbs c.signature
    | none => false

/-- A path from a certificate to the trust anchor through some of the given certificates. The first argument
bounds its length. -/
def chainValid (anchorName anchorKey : Bytes) (time : Nat) (inter : List Cert) : Nat → Cert → Bool
  | 0, _ => false
  | n + 1, c =>
    if c.issuer = anchorName then signedBy c anchorKey time
    else inter.any fun i => i.subject = c.issuer && signedBy c i.key time && chainValid anchorName anchorKey time inter n i

/-- `DCAP_SERVER_ROOTS`, teerex/sgx-verify/src/lib.rs L435-453. -/
def dcapName : Bytes := unhex [
  (64, 0x311a301806035504030c11496e74656c2053475820526f6f74204341311a3018060355040a0c11496e74656c20436f72706f726174696f6e3114301206035504),
  (40, 0x070c0b53616e746120436c617261310b300906035504080c024341310b3009060355040613025553)]
def dcapKey : Bytes := unhex [
  (64, 0x301306072a8648ce3d020106082a8648ce3d030107034200040ba9c4c0c0c86193a3fe23d6b02cda10a8bbd4e88e48b4458561a36e705525f567918e2edc88e4),
  (25, 0x0d860bd0cc4ee26aacc988e505a953558c453f6b0904ae7394)]

/-- `IAS_SERVER_ROOTS`, teerex/sgx-verify/src/lib.rs L391-430. -/
def iasName : Bytes := unhex [
  (64, 0x310b3009060355040613025553310b300906035504080c0243413114301206035504070c0b53616e746120436c617261311a3018060355040a0c11496e74656c),
  (62, 0x20436f72706f726174696f6e3130302e06035504030c27496e74656c20534758204174746573746174696f6e205265706f7274205369676e696e67204341)]
def iasKey : Bytes := unhex [
  (64, 0x300d06092a864886f70d01010105000382018f003082018a02820181009f3c647eb5773cbb512d2732c0d7415ebb55a0fa9ede2e649199e6821db910d5317737),
  (64, 0x0977466a6a5e4786ccd2ddebd4149d6a2f6325529dd10cc98737b0779c1a07e29c47a1ae004948476c489f45a5a15d7ac8ecc6acc645adb43d87679df59c093b),
  (64, 0xc5a2e9696c5478541b979e754b573914be55d32ff4c09ddf27219934cd990527b3f92ed78fbf29246abecb71240ef39c2d7107b447545a7ffb10eb060a68a985),
  (64, 0x80219e36910952683892d6a5e2a80803193e407531404e36b315623799aa825074409754a2dfe8f5afd5fe631e1fc2af3808906f28a790d9dd9fe060939b1257),
  (64, 0x90c5805d037df56a99531b96de69de33ed226cc1207d1042b5c9ab7f404fc711c0fe4769fb9578b1dc0ec469ea1a25e0ff9914886ef2699b235bb4847dd6ff40),
  (64, 0xb606e6170793c2fb98b314587f9cfd257362dfeab10b3bd2d97673a1a4bd44c453aaf47fc1f2d3d0f384f74a06f89c089f0da6cdb7fceee8c9821a8e54f25c04),
  (34, 0x16d18c46839a5f8012fbdd3dc74d256279adc2c0d55aff6f0622425d1b0203010001)]

/-- The external functions, executable. -/
def ext : Ext where
  sha256 := sha256
  certParses := fun der => (parseCert der).isSome
  dcapChainValid := fun leaf inter time =>
    match parseCert leaf, inter.mapM parseCert with
    | some c, some l => chainValid dcapName dcapKey time l 3 c
    | _, _ => false
  iasCertValid := fun leaf time =>
    match parseCert leaf with
    | some c => chainValid iasName iasKey time [] 1 c
    | none => false
  certVerifySig := fun alg cert data sig =>
    match parseCert cert with
    | some c => verifyWith c.key alg data sig
    | none => false
  p256Verify := fun key data sig =>
    match key with
    | 4 :: k => p256.verify k (sha256Nat data) sig
    | _ => false
  x509Extensions := fun der => (parseCert der).map (·.extensions)
  base64 := base64Decode
  json := json
  parseTime := parseTime
  parseDate := parseDate

end Verif.Conf
