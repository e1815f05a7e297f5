import Verif.Model.Scale

/-!
# The SCALE encoding of XCM locations

`Location` of staging-xcm 14.1.0 (/repo Cargo.lock L4540-4541), the type of the arguments and stored values of
asset-registry. The encoding of an enum is the position of the variant followed by its fields; fields marked
`#[codec(compact)]` there are written compactly.
-/

namespace Verif.Scale

/-- `NetworkId` (external, XCM v4; part of the locations of asset-registry/src/lib.rs L102). -/
def networkId : Codec NetworkId :=
  enum [⟨0, _, arr 32, .byGenesis, fun | .byGenesis h => some h | _ => none⟩,
    ⟨1, _, pair (le 8) (arr 32), fun (n, h) => .byFork n h, fun | .byFork n h => some (n, h) | _ => none⟩,
    ⟨2, _, unit, fun _ => .polkadot, fun | .polkadot => some () | _ => none⟩,
    ⟨3, _, unit, fun _ => .kusama, fun | .kusama => some () | _ => none⟩,
    ⟨4, _, unit, fun _ => .westend, fun | .westend => some () | _ => none⟩,
    ⟨5, _, unit, fun _ => .rococo, fun | .rococo => some () | _ => none⟩,
    ⟨6, _, unit, fun _ => .wococo, fun | .wococo => some () | _ => none⟩,
    ⟨7, _, compact 8, .ethereum, fun | .ethereum i => some i | _ => none⟩,
    ⟨8, _, unit, fun _ => .bitcoinCore, fun | .bitcoinCore => some () | _ => none⟩,
    ⟨9, _, unit, fun _ => .bitcoinCash, fun | .bitcoinCash => some () | _ => none⟩,
    ⟨10, _, unit, fun _ => .polkadotBulletin, fun | .polkadotBulletin => some () | _ => none⟩]

/-- `BodyId` (external, XCM v4; part of the locations of asset-registry/src/lib.rs L102). -/
def bodyId : Codec BodyId :=
  enum [⟨0, _, unit, fun _ => .unit, fun | .unit => some () | _ => none⟩,
    ⟨1, _, arr 4, .moniker, fun | .moniker n => some n | _ => none⟩,
    ⟨2, _, compact 4, .index, fun | .index i => some i | _ => none⟩,
    ⟨3, _, unit, fun _ => .executive, fun | .executive => some () | _ => none⟩,
    ⟨4, _, unit, fun _ => .technical, fun | .technical => some () | _ => none⟩,
    ⟨5, _, unit, fun _ => .legislative, fun | .legislative => some () | _ => none⟩,
    ⟨6, _, unit, fun _ => .judicial, fun | .judicial => some () | _ => none⟩,
    ⟨7, _, unit, fun _ => .defense, fun | .defense => some () | _ => none⟩,
    ⟨8, _, unit, fun _ => .administration, fun | .administration => some () | _ => none⟩,
    ⟨9, _, unit, fun _ => .treasury, fun | .treasury => some () | _ => none⟩]

/-- `BodyPart` (external, XCM v4; part of the locations of asset-registry/src/lib.rs L102). -/
def bodyPart : Codec BodyPart :=
  enum [⟨0, _, unit, fun _ => .voice, fun | .voice => some () | _ => none⟩,
    ⟨1, _, compact 4, .members, fun | .members n => some n | _ => none⟩,
    ⟨2, _, pair (compact 4) (compact 4), fun (n, d) => .fraction n d,
      fun | .fraction n d => some (n, d) | _ => none⟩,
    ⟨3, _, pair (compact 4) (compact 4), fun (n, d) => .atLeastProportion n d,
      fun | .atLeastProportion n d => some (n, d) | _ => none⟩,
    ⟨4, _, pair (compact 4) (compact 4), fun (n, d) => .moreThanProportion n d,
      fun | .moreThanProportion n d => some (n, d) | _ => none⟩]

/-- `Junction` (external, XCM v4; part of the locations of asset-registry/src/lib.rs L102). -/
def junction : Codec Junction :=
  enum [⟨0, _, compact 4, .parachain, fun | .parachain i => some i | _ => none⟩,
    ⟨1, _, pair (opt networkId) (arr 32), fun (n, a) => .accountId32 n a,
      fun | .accountId32 n a => some (n, a) | _ => none⟩,
    ⟨2, _, pair (opt networkId) (compact 8), fun (n, i) => .accountIndex64 n i,
      fun | .accountIndex64 n i => some (n, i) | _ => none⟩,
    ⟨3, _, pair (opt networkId) (arr 20), fun (n, a) => .accountKey20 n a,
      fun | .accountKey20 n a => some (n, a) | _ => none⟩,
    ⟨4, _, le 1, .palletInstance, fun | .palletInstance i => some i | _ => none⟩,
    ⟨5, _, compact 16, .generalIndex, fun | .generalIndex i => some i | _ => none⟩,
    ⟨6, _, pair (le 1) (arr 32), fun (n, d) => .generalKey n d, fun | .generalKey n d => some (n, d) | _ => none⟩,
    ⟨7, _, unit, fun _ => .onlyChild, fun | .onlyChild => some () | _ => none⟩,
    ⟨8, _, pair bodyId bodyPart, fun (i, p) => .plurality i p, fun | .plurality i p => some (i, p) | _ => none⟩,
    ⟨9, _, networkId, .globalConsensus, fun | .globalConsensus n => some n | _ => none⟩]

/-- `Junctions` (external, XCM v4): the variants `Here`, `X1` to `X8` have the number of junctions as index, the
field is an array of that many junctions. -/
def junctions : Codec (List Junction) where
  enc l := UInt8.ofNat l.length :: l.flatMap junction.enc
  dec
    | [] => none
    | t :: i => if t.toNat ≤ 8 then decN junction t.toNat i else none
  fits l := l.length ≤ 8 ∧ ∀ j ∈ l, junction.fits j

/-- `Location` (external, XCM v4), the argument of asset-registry/src/lib.rs L102 and the stored value and key of
L69-73. -/
def location : Codec Location :=
  iso (pair (le 1) junctions) (fun (p, j) => ⟨p, j⟩) (fun l => (l.parents, l.interior))

end Verif.Scale
