import Verif.Spec.Scale
import Verif.Model.ScaleEvents

/-!
# Specification: the bytes of events

The layouts, written down directly from the declarations of the events.
-/

namespace Verif

namespace Layout

/-- An event: its number in the pallet and its fields. -/
def event (w : Scale.Widths) (loc : Location → Bytes) : Event → Bytes
  | .td (.bonded a v) => 0 :: (a.val ++ number w.bal v)
  | .td (.unbonded a v b) => 1 :: (a.val ++ number w.bal v ++ number w.bal b)
  | .td (.tokenTimeUpdated a b) => 2 :: (a.val ++ bond w b)
  | .td (.withdrawn a v) => 3 :: (a.val ++ number w.bal v)
  | .tx (.addedSgxEnclave a u t m) => 0 :: (a.val ++ option text u ++ option status t ++ method m)
  | .tx (.removedSovereignEnclave a) => 1 :: a.val
  | .tx (.removedProxiedEnclave a) => 2 :: address a
  | .tx (.sgxTcbInfoRegistered f i) => 3 :: (f.val ++ tcbInfo i)
  | .tx (.sgxQuotingEnclaveRegistered q) => 4 :: quotingEnclave q
  | .tx (.updatedSecurityFlags k d) => 5 :: (flag k ++ flag d)
  | .br (.indirectInvocationRegistered s) => 0 :: s.val
  | .br (.shieldFunds s b v) => 1 :: (s.val ++ text b ++ number w.bal v)
  | .br (.unshieldedFunds s b v) => 2 :: (s.val ++ b.val ++ number w.bal v)
  | .br (.processedParentchainBlock s h r n) => 3 :: (s.val ++ h.val ++ r.val ++ number w.block n)
  | .br (.publishedHash _ f h d) => 4 :: (f.val ++ h.val ++ text d)
  | .br (.shardConfigUpdated s) => 5 :: s.val
  | .br (.purgedEnclave s a) => 6 :: (s.val ++ a.val)
  | .sc (.finalized s n h a) => 0 :: (s.val ++ number 8 n ++ h.val ++ a.val)
  | .orc (.exchangeRateUpdated s p r) => 0 :: (text s ++ text p ++ number 8 r)
  | .orc (.exchangeRateDeleted s p) => 1 :: (text s ++ text p)
  | .orc (.oracleUpdated n s) => 2 :: (text n ++ text s)
  | .orc (.addedToWhitelist s f) => 3 :: (text s ++ f.val)
  | .orc (.removedFromWhitelist s f) => 4 :: (text s ++ f.val)
  | .cl (.claimed a e v) => 0 :: (a.val ++ e.val ++ number w.bal v)
  | .ar (.registered i l) => 0 :: (number w.asset i ++ loc l)
  | .ar (.unregistered i l) => 1 :: (number w.asset i ++ loc l)
  | .xt (.sentXcm h) => 0 :: h.val
  | .xt (.swapTransactSent a b) => 1 :: (number 4 a ++ number 4 b)

/-- The index of the pallet that announces the event. -/
def eventPallet (ix : Scale.PalletIndex) : Event → UInt8
  | .td _ => ix.td
  | .tx _ => ix.tx
  | .br _ => ix.br
  | .sc _ => ix.sc
  | .orc _ => ix.orc
  | .cl _ => ix.cl
  | .ar _ => ix.ar
  | .xt _ => ix.xt

/-- When an event was announced. -/
def phase : Scale.Phase → Bytes
  | .applyExtrinsic i => 0 :: number 4 i
  | .finalization => [1]
  | .initialization => [2]

/-- What the block keeps of an event: when, by which pallet, the event, its topics. -/
def record (w : Scale.Widths) (ix : Scale.PalletIndex) (loc : Location → Bytes) (p : Scale.Phase × Event) : Bytes :=
  phase p.1 ++ [eventPallet ix p.2] ++ event w loc p.2 ++ list (fun t : H256 => t.val) p.2.topics

end Layout

namespace Fits

/-- The fields of an event, and its topics, are in range. -/
def event (w : Scale.Widths) (loc : Location → Prop) : Event → Prop
  | .td (.bonded _ v) | .td (.withdrawn _ v) => number w.bal v
  | .td (.unbonded _ v b) => number w.bal v ∧ number w.bal b
  | .td (.tokenTimeUpdated _ b) => bond w b
  | .tx (.addedSgxEnclave _ u _ _) => ∀ x, u = some x → vector x
  | .tx (.removedSovereignEnclave _) => True
  | .tx (.removedProxiedEnclave a) => address a
  | .tx (.sgxTcbInfoRegistered _ i) => tcbInfo i
  | .tx (.sgxQuotingEnclaveRegistered q) => quotingEnclave q
  | .tx (.updatedSecurityFlags _ _) => True
  | .br (.shieldFunds _ b v) => vector b ∧ number w.bal v
  | .br (.unshieldedFunds _ _ v) => number w.bal v
  | .br (.processedParentchainBlock _ _ _ n) => number w.block n
  | .br (.publishedHash t _ _ d) => vector t ∧ vector d
  | .br _ => True
  | .sc (.finalized _ n _ _) => number 8 n
  | .orc (.exchangeRateUpdated s p r) => vector s ∧ vector p ∧ number 8 r
  | .orc (.exchangeRateDeleted s p) | .orc (.oracleUpdated s p) => vector s ∧ vector p
  | .orc (.addedToWhitelist s _) | .orc (.removedFromWhitelist s _) => vector s
  | .cl (.claimed _ _ v) => number w.bal v
  | .ar (.registered i l) | .ar (.unregistered i l) => number w.asset i ∧ loc l
  | .xt (.sentXcm _) => True
  | .xt (.swapTransactSent a b) => number 4 a ∧ number 4 b

/-- The index of an extrinsic is in range. -/
def phase : Scale.Phase → Prop
  | .applyExtrinsic i => number 4 i
  | _ => True

end Fits

/-- The events of a chain, of all pallets. -/
def Announced (s : Chain) : Event → Prop
  | .td e => e ∈ s.td.events
  | .tx e => e ∈ s.tx.events
  | .br e => e ∈ s.br.events
  | .sc e => e ∈ s.sc.events
  | .orc e => e ∈ s.orc.events
  | .cl e => e ∈ s.cl.events
  | .ar e => e ∈ s.ar.events
  | .xt e => e ∈ s.xt.events

/-- The runtime gives different indices to the pallets. -/
def Scale.PalletIndex.Apart (ix : Scale.PalletIndex) : Prop :=
  [ix.td, ix.tx, ix.br, ix.sc, ix.orc, ix.cl, ix.ar, ix.xt].Nodup

end Verif
