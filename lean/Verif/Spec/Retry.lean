import Verif.Spec.Effect

/-!
# Specification: sending a call twice

A client that does not know whether its transaction went through sends it again. What the second one does, in the same
block, if the first one was accepted.
-/

namespace Verif

/-- What the second of two equal calls does. -/
inductive Retry where
  /-- it is refused -/
  | refused
  /-- it is accepted and changes nothing; only its event is there twice -/
  | harmless
  /-- it depends on the state -/
  | depends
  /-- it is done again -/
  | again
  deriving DecidableEq

/-- The table, by call. -/
def Call.retry : Call → Retry
  | .bond _ | .unbond _ | .withdrawUnbonded | .unregisterSovereignEnclave _ | .unregisterProxiedEnclave _
  | .addToWhitelist .. | .removeFromWhitelist .. | .registerReserveAsset .. | .unregisterReserveAsset _
  | .claims (.claim ..) | .claims (.claimAttest ..) | .claims (.attest _) => .refused
  | .updateOther _ | .registerSgxEnclave .. | .registerQuotingEnclave .. | .registerTcbInfo .. | .setSecurityFlags ..
  | .invoke .. | .confirmProcessedParentchainBlock .. | .publishHash .. | .purgeEnclave .. | .updateOracle ..
  | .updateExchangeRate .. | .claims (.moveClaim ..) => .harmless
  | .unshieldFunds .. | .updateShardConfig .. | .confirmImportedSidechainBlock .. => .depends
  | .bondExtra _ | .shieldFunds .. | .claims (.mintClaim ..) | .sendSwapUmp .. | .balTransfer .. => .again

/-- What the calls that are done again have done after two of them: `s` before, `s'` after the first, `s''` after the second.
Money is sent twice, the total of the claims has risen twice although there is one claim, the program is sent twice, and
the second bonds as much again as there is. -/
def DoneTwice (c : Cfg) (s s' s'' : Chain) (o : Origin) : Call → Prop
  | .shieldFunds dst _ v | .balTransfer dst v => ∀ a, o = .signed a → a ≠ dst → s''.bal.free dst = s.bal.free dst + 2 * v
  | .claims (.mintClaim who v _ _) => s''.cl.total = (s.cl.total + 2 * v) % (c.balMax + 1) ∧ s'.cl.claims who = some v ∧
      s''.cl.claims = s'.cl.claims
  | .sendSwapUmp .. => ∃ m, s''.xt.sent = m :: m :: s.xt.sent
  | .bondExtra v => ∀ a, o = .signed a →
      bondValue s'' a = min (bondValue s' a + min v (s'.bal.free a - bondValue s' a)) c.balMax
  | _ => False

end Verif
