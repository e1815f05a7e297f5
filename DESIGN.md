# Formal model of integritee-network/pallets: design

## 1. What is modelled

The model is a function-by-function transcription of the Rust code in /repo into total, computable Lean 4
functions. Every model definition carries a comment with the file and lines it transcribes.

| Lean module (under `lean/Verif/Model`) | Code in /repo |
|---|---|
| `CommonPrimitives` | primitives/common |
| `TeerexPrimitives`, `EnclaveInfo` | primitives/teerex (the second: accessors and builders that no pallet depends on) |
| `SgxVerify`, `Collateral`, `EphemeralKey` | teerex/sgx-verify/src (lib, collateral, utils, netscape_comment; ephemeral_key) |
| `Balances` | external: the part of pallet_balances / pallet_vesting / Currency that the pallets call |
| `State` | storage of all pallets, configuration parameters, errors, events |
| `Teerdays` | teerdays + primitives/teerdays |
| `Teerex` | teerex/src/lib.rs |
| `EnclaveBridge` | enclave-bridge + primitives/enclave-bridge |
| `Sidechain` | sidechain + primitives/sidechain |
| `Teeracle` | teeracle + primitives/teeracle |
| `Claims` | claims + primitives/claims |
| `AssetRegistry` | asset-registry |
| `XcmTransactor` | xcm-transactor + primitives/xcm-transactor |
| `XcmPrimitives` | primitives/xcm |
| `XcmTypes` | external: the XCM v4 vocabulary that the two modules above build values of |
| `EthAddress`, `Hex` | primitives/claims, text form of an Ethereum address; the hexadecimal codecs behind it |
| `Json` | external: JSON trees and `serde`'s reading of basic types from them (used by `Collateral`) |
| `JsonText`, `DateText`, `Base64` | external: the syntax of JSON as serde_json reads it; dates of the published form as chrono reads them; Base64 as crate base64 reads it |
| `Fees` | the `#[pallet::weight]`/`Pays` annotations of all calls and the unsigned/signed checks before inclusion: which transactions get into a block, and for which of them a fee is due |
| `Migrations` | teerex/src/migrations.rs, with the `try-runtime` checks |
| `RawMigrations` | teerex/src/migrations.rs again, on raw keys and bytes, with the database accesses it declares |
| `Scale` | the codecs derived for all stored types and all calls, and the storage keys (over the codec of the basic types, which is external) |
| `ScaleXcm`, `ScaleEvents` | the codec of cross-chain locations; the codecs of all events and of the event log of a block |
| `ErrorCodes` | the error enums in source order and the bytes of the dispatch error of a refused call |
| `Weights` | the weight functions of the repository and the weight attribute of each call |
| `Trie` | the encoded value of every storage entry (value types of all storage items) |
| `Runtime` | the extrinsic dispatch over all pallets, blocks, outside world |

### State and execution
* One record `Chain` holds the storage of all pallets, the current block number and time, the balances
  and an append-only event list per pallet. The event lists are ghost state: FRAME only keeps events of
  the current block, the model keeps all of them so that histories can be talked about.
* Storage maps are functions `K -> Option V`.
* An extrinsic is a function `Cfg -> Chain -> Origin -> args -> Except Err Chain`. `Except.error` means
  the extrinsic fails; FRAME's storage layer rolls back, so `step` keeps the old state.
  Panics are explicit error values (`Err.panic`), never hidden by totality.
* `Op` is an extrinsic with an arbitrary origin, the start of a new block, or an action of the outside
  world (plain currency transfers, minting/slashing by other pallets, vesting progress, creation and
  destruction of assets). A history is a list of `Op`; `run` folds `step` over it.
  All history theorems quantify over all lists of `Op` (induction over the list).
* Numbers are `Nat`. Saturating/checked/wrapping behaviour of the Rust integer types is explicit
  (`satAdd`, `satMul`, bounds in `Cfg`). Plain `+` on runtime integers either wraps or panics, depending
  on the build profile: `Cfg.overflowChecks` selects it, and theorems hold for both settings unless stated.
* 32-byte ids (accounts, shards, measurements, hashes) are byte lists with length 32 (`Arr 32`), so the
  conversions between shard id and account id are real conversions.

### External parts (parameters)
Not modelled but passed in as arbitrary functions, over which every theorem quantifies:
sha256, keccak, secp256k1 recovery, ECDSA/RSA verification and X.509 chain verification (webpki), X.509
extension lookup, JSON syntax (bytes to tree, serde_json), date text (chrono, in both directions), base64, the
XCM sender, the assets pallet's `asset_exists`/`minimum_balance`. So the theorems are relative to
"the signature check answered yes", not to unforgeability. What is made of a JSON tree (the `serde` derives of
`collateral.rs`) is modelled.
C149 to C152 narrow three of these parameters: they assume that the JSON reader follows the grammar in
`Spec/JsonText.lean`, that the date reader follows the calendar in `Spec/Calendar.lean` on texts of the published form, and
that the Base64 reader follows RFC 4648 with optional padding (`Spec/Base64.lean`). `Model/JsonText.lean`,
`Model/DateText.lean` and `Model/Base64.lean` are readers with these properties, so the assumptions can be met; nothing
else uses them.

### Trusted base
* Lean 4.33.0 kernel and the three standard axioms `propext`, `Classical.choice`, `Quot.sound`
  (`lean/Verif/Axioms.lean` prints the axioms of every listed theorem at build time).
  No own axioms, no `sorry`, no `native_decide`, no `bv_decide`.
* That the Lean transcription says what the Rust says. The citations make this reviewable.
* FRAME: storage-layer rollback of failed calls, `ensure_signed`/`ensure_root` semantics, decoding of
  call arguments into the declared (bounded) types, monotone timestamps (pallet_timestamp), block numbers
  growing by one. `Moment` is `u64`, as in all test runtimes in /repo.
* pallet_balances 37 / pallet_vesting 36 semantics as transcribed from memory in `Model/Balances.lean`
  (their source is not in the sandbox): locks, reducible balance, existential deposit, dust.
* Semantics of further external crates as remembered: `serde` derives (field names, unknown and repeated members,
  enum variants by name), the crates `hex` 0.4 and `rustc-hex` 2.1 (the latter skips blanks), the meaning of
  `Pays::No` before and after dispatch, the XCM instructions used by the swap program (`Spec/Xcm.lean`).
* parity-scale-codec as remembered: little-endian numbers, compact numbers (canonical form required), `Option` and
  enums by index, vectors with compact length, `BoundedVec` refusing longer vectors, derived field order. The storage
  keys of frame_support as remembered (names hashed with `twox_128`, `Blake2_128Concat`, `Identity`). The encodings of
  `MultiSigner` (sp-runtime), of `Location` (xcm v4, `Model/ScaleXcm.lean`) of event records (frame_system) and of
  `DispatchError`, `TokenError`, `ArithmeticError` (sp-runtime). `PalletString` is `Vec<u8>` in the runtime build.
* The specifications in `Verif/Spec`: they say what the claims mean. `Spec/Der.lean` states DER lengths and PEM from
  the standards, `Spec/Quote.lean` the quote layout by byte offsets, `Spec/QuoteParts.lean` the quote as its parts in order,
  `Spec/PckCert.lean` the SGX extension of platform certificates as in Intel's certificate profile (from memory).

### What specifications share with the model
The specifications use the types of the state, of calls and of errors, and the external parameters. They also mention
a few functions of the model whose meaning is fixed by a claim of their own: readers of collateral and reports
(`parseIdentity`, `parseTcbInfo`, `jsonReport`: C92 to C95, C148), certificates in a chain (`extractCerts`: C75, C152),
signatures in DER (`encodeAsDer`: C73), the codecs (C116, C117, C132), keys and names of storage items (C157), the tag in
the pool (C52), the swap program (C61, C62). Everything else they use (statement texts, names of statuses, object
identifiers, layouts) is written out in `Verif/Spec`.

### Not modelled
The amount of fees (only whether one is due), the weights for tests, benchmarking code, RPC, mocks and tests, `std`-only
helpers, metadata, other pallets.

## 2. Method
* `Verif/Spec/*`: small independent specifications (time integral, effective configuration timeline,
  byte offsets, decimal numerals, ...).
* `Verif/Proofs/*`: helper lemmas and invariants. `Verif/Props/*`: one file per pallet with the property
  theorems, named `Cnn_...`, each followed by an `example` showing that its hypotheses can be met.
* Where the code does not satisfy a property in full, the full statement is kept as a `def ..._Full : Prop`,
  its negation is proved from a concrete history, and the strongest true variant found is proved as `..._partial`,
  with a comment saying what is missing. `Verif/Props/Sharp.lean`, `Limits.lean`, `LimitsMore.lean` and `LimitsLast.lean` go further for most of these claims: there,
  `Cnn_sharp` gives the exact condition, shows that the claim fails in every state outside it, or that what
  should make a difference makes none in any state.
* Per call there is an inversion lemma (`..._ok`: the call succeeds with exactly this state, if and only if ...). Per
  storage item there is an effect lemma over all operations (`sovereign_effect`, `status_effect`, `config_effect`,
  `currency_effect`, `claims_effect`, ...). History theorems are inductions that use only the effect lemmas.
* Mutation tests: in a copy outside this directory a definition of the model is changed as a programmer could get it
  wrong. Where the inversion lemma of that call is false afterwards, it is taken as given for the rest of the build, in
  some attempts as it was (then only theorems that do not go through it can fail), in others changed to say what the
  wrong program does. Every theorem that fails after that is recorded, with all claims that depend on it, in
  `seeded/LOG.jsonl`. A mutant that breaks a claim but no theorem leads to a stronger theorem.

### Conformance suite
`Verif/Conformance/*` checks the transcription, it proves no property, and no claim rests on it. Every unit test of
/repo is written as a script over the model (one `example` or one named script per test, with the lines of the test)
and run by the kernel (`decide +kernel`). It covers teerdays, teerex (with migrations), sgx-verify, enclave-bridge,
sidechain, teeracle, claims, asset-registry, xcm-transactor and primitives/teerex.
* The attestation tests run on the original bytes: the IAS certificates, the DCAP quotes, the collateral and the
  certificate chains of /repo (`IasData`, `DcapData`), with Intel's real signatures. For this `External` and `Crypto`
  give one executable value of the external functions: SHA-256, Keccak-256, ECDSA over P-256 and secp256k1, RSA, base64,
  JSON, dates, X.509 parsing and chain checks up to the trust anchors in lib.rs.
* Left out or weaker: `parse_pck_crl` (demonstration code), sizes of iterated maps (maps are functions here),
  decoding the swap call with the Kusama metadata (fetched from the network by the test; our own decoder instead),
  the sidechain and teeracle tests register enclaves by attestation, their scripts put them into the registry directly.
* The suite found no difference between the model and the expectations in the tests.

## 3. Plan per property
| Id | How modelled and proved |
|---|---|
| C01 | invariant over histories: lock = bond + pending + dust. Full claim expected FALSE (bond while unlock pending overwrites the lock): refute by a concrete history, prove for histories without such a re-bond |
| C02 | same cause; refute, prove partial with monotonicity of the lock until the deadline |
| C03 | algebraic law of `update`, plus history version |
| C04 | ghost integral computed from the history; invariant |
| C05 | arithmetic bound, history version |
| C06 | division lemmas, event content. FALSE in full when the remainder is below the existential deposit: refuted, proved otherwise |
| C07 | invariant `lock <= free` over histories; FALSE in full for the same reason as C01: refuted, proved for histories as in C01, and per call |
| C08 | decision logic + invariant on deadlines |
| C09 | frame theorem over all teerdays calls |
| C10 | ghost sums over the event log; invariant |
| C11 | expected FALSE for existential deposit > 1 (dust stays locked): refute, prove exact remainder < ED |
| C12, C13, C19, C20, C26 | registry invariants over histories |
| C14, C15 | decoder soundness: acceptance implies facts about slices of the raw bytes |
| C16 | panics are explicit errors; prove unreachable |
| C17, C18 | decision logic (iff) + history theorems |
| C21, C25 | decision logic (iff), monotonicity |
| C22 | invariant with ghost provenance |
| C23, C24 | expected FALSE: refute; partial: what is checked at registration |
| C27, C28 | counting over the event log / history |
| C29, C36, C37 | list invariants |
| C30 | effective-config function of the block number, refinement |
| C31, C32, C44 | authorization: a change of storage implies the shape of the call |
| C33, C69 | exact balance equations |
| C34 | expected FALSE (any registered enclave may configure a shard whose id is an account id): refute; partial: which calls can debit |
| C35 | iff |
| C38 | expected FALSE (flag never read): refute; partial: flag is stored and visible |
| C39, C40, C42 | invariant over event log |
| C41 | expected FALSE after the first validateer is gone: refute; partial: holds if the first entry is registered, and after a root purge |
| C43, C45, C46 | invariants |
| C47, C48 | conservation invariants; sums over arbitrary duplicate-free address lists |
| C49 | expected FALSE (overwriting mints): refute; partial: without overwriting |
| C50, C53, C54 | decision logic + history |
| C51 | injectivity and decimal numerals |
| C52 | two-function comparison |
| C55 | expected FALSE (per_block = 0): refute; partial |
| C56 | expected FALSE (stale preclaims): refute; partial |
| C57 | expected FALSE (amount below ED to fresh account): refute; partial |
| C58 | expected FALSE (two ids, one location): refute; partial one direction |
| C59-C64 | decision logic, exact encodings |
| C65 | decision logic, idempotence, composition |
| C66, C67 | byte-level laws |
| C68 | frame theorem over all calls |
| C70, C71, C72 | FALSE in full (fixed time of 2019; status not looked at; no freshness in quotes): refuted; partial: what is checked |
| C73, C75, C76, C85 | byte-level: encoder/decoder against `Spec/Der.lean`; C85 FALSE for the 0x81 and 0x83 forms: refuted |
| C74 | two-shard frame; FALSE in full (call hashes are global): refuted; partial |
| C77, C86, C90 | panics are explicit errors; FALSE in full: refuted; partial: exact condition of the panic |
| C78, C79 | FALSE in full (ten places; any enclave may configure): refuted; partial |
| C80, C81, C82 | comparison of validation and dispatch, exact effect of minting; FALSE in full: refuted; partial |
| C83 | interpreter of the XCM program on the relay chain; FALSE in full: refuted; partial |
| C84 | decision logic; FALSE in full: refuted; partial |
| C87 | liveness: for every state an explicit sequence of the account's own calls, whatever others do in between |
| C88 | commutation of histories: the teerdays view of an account depends on its own operations and the clock only |
| C89 | round trip and injectivity of text |
| C91, C92 | round trip over JSON trees, invariance under permutation and under null in place of an absent member; repeated members stop the reader |
| C93, C94, C95 | reader against `Spec/Collateral.lean`; C93 FALSE in full (missing status): refuted. Optional and unknown members: readers give the same used values without them (`Describes` in `Spec/Escapes.lean`) |
| C96, C97 | decision logic over all transactions; C96 FALSE in full: refuted, exact list of exceptions |
| C98, C99 | accounting identities, induction over histories |
| C100, C101, C102 | registry and status invariants; FALSE in full (existing entries stay): refuted; partial: origin and removal |
| C103 | FALSE in full (no nonce): refuted; partial: until a new claim for the address |
| C104 | FALSE in full: refuted; partial: the money cannot be taken out |
| C105 | table `Spec/Accept.lean`, equivalence call by call from the inversion lemmas, on states with a well-formed status list (invariant) |
| C106 | counting over histories |
| C107, C109, C111, C112, C114 | vocabulary `Spec/Events.lean` (what an observer concludes from events); invariant storage = told by the events |
| C108, C110, C113 | FALSE in full (events carry too little, or none): refuted by two histories with equal events; partial: what they do tell |
| C115 | FALSE in full (silent calls): refuted; partial: exact list, as an equivalence |
| C116, C117 | round trip and unique readability, combinator by combinator; layouts in `Spec/Scale.lean` |
| C118 | prefix-freeness of the key encodings |
| C119 | invariant over histories (all numbers in range) combined with the round trips of C116 |
| C120 | FALSE in full (swapped arguments): refuted; partial as an equivalence |
| C121 | FALSE in full: refuted call by call; partial: bound per call, sufficient for the others (vocabulary `Spec/Weights.lean`) |
| C122 | decision logic: all calls against the table `Spec/News.lean` |
| C123 | FALSE in full (rest below the existential deposit): refuted; partial: the other cases |
| C124 | frame property against the lists in `Spec/Locality.lean`, call by call |
| C125 | dependency property: two states that agree on the listed places |
| C126 | from C124 and C125: commutation of two calls; induction over a list of calls |
| C127 | injectivity of keys (C118) and of the encodings of values in range (C116, C119) |
| C128 | invariant by induction, lengths of encodings; counterexample for the full statement |
| C129 | model of the `try-runtime` checks; decision logic, codec round trip for the data passed between them, guarantee for arbitrary pairs of states |
| C130 | `Trusted` in Spec/Trust.lean; invariant over histories tying entries, collateral and flags to accepted operations |
| C131 | conservation by induction over histories, sum over finite support; from genesis with C132 |
| C132 | induction over the genesis lists |
| C133 | invariant by induction over histories |
| C134 | counterexample for the full statement; effect of every operation on the list of confirmations |
| C135 | counterexample: invariant over all later histories; partial from C41 |
| C136 | decision logic: the checks of every call, composed, against the ordered table `conditions` in Spec/Refusal.lean |
| C137 | decision logic: the panic rows of that table against `PanicCase` |
| C138 | round trip of the location codec against `Spec/ScaleXcm.lean`; C117-C119 instantiated with it |
| C139 | round trip of the event codecs against `Spec/ScaleEvents.lean`; ranges by induction over histories |
| C140 | decision logic: the encoded error against the table `Says`; C136 for the reasons |
| C141 | key by key effect on the raw storage; refinement to the maps of C65, preserved by each upgrade |
| C142 | refuted on a storage with an empty registry; count of changed keys for the rest |
| C143 | length of the two encodings |
| C144 | decision logic of the two validity checks, code by code |
| C145 | refuted by an unrequired statement; the rest by comparing the two checks |
| C146 | induction over histories on the claim and statement of one address |
| C147 | refuted by the re-bonding history followed by a second bond of the same tokens; otherwise sum of the per-account coverage (C07) against the issuance (C69), and of the integrals (C04) |
| C148 | invariant of schedules and vesting lock of one account over all later histories; exact value after `vest` |
| C149 | the described reader agrees with the grammar, in both directions, for all byte strings (recursive descent against relations); then C92, C94, C95 over texts; readers do not see whether letters are escaped, except in hexadecimal members |
| C150 | order of dates by induction over years and months; the windows of C93 and the report (C70) read through it |
| C151 | the described decoder inverts the encoding, in both directions; then the report check (C70) through all three text layers, both ways |
| C152 | refuted by a chain with carriage returns; splitting at the markers (C75) over all layouts with line feeds |
| C153 | the DER form of Intel's extension, cut where the values are; a byte search finds the first occurrence because the object identifier cannot overlap tags, lengths and numbers; refuted by PCE SVN 32768 |
| C154 | C153, C152, C149, C150 and the acceptance iff (C95, `register_iff`) put together; refuted by PCE SVN 40000; other sizes of the authentication data are refused, by the exact place that is hashed |
| C155 | acceptance (C105), places (C124), events (C122) and the effect table `Spec/Effect.lean`: each successful call meets the tables (inversion lemmas), and the tables leave no freedom (place by place) |
| C156 | simulation in both directions between the model and the abstract machine `Spec/History.lean`, by induction on the history; C155 and C136 for calls, case analysis for the outside world |
| C157 | C116 and C119 give the bytes of the values, C118 that keys do not collide; keys and values are compared with the table `Spec/StorageMap.lean`, written without the codecs, item names and hashers of the model |
| C158 | exact reading of the search and of the length (as in C67); the offsets in a P-256 key are computed |
| C159 | from C155 alone: the result of a harmless call is shown to be a state in which the call is acceptable and has its effect already |
| C160 | the two builds are run side by side: equal, or one panics where a sum does not fit; for histories the room left for time, counters and total is an invariant |
| C161 | for every call the facts its acceptance rests on (C105) are followed through every operation with the effect lemmas; what does not keep them is the list in `Spec/Hinder.lean` |
| C162 | the listed versions are followed from the signed identity that was registered last (C172) to the check of the quote (C25); refuted by a level that is out of date |
| C163 | comparing prefix, hexadecimal account and statement of two messages from the left; the required statements end in a character that is no hexadecimal digit and neither ends in the other |
| C164 | from the invariants of the two registries (C12, C13, C26) and the definition of the accessors; what was registered last by induction over histories |
| C165 | comparing lengths: the author has 32 bytes, a converted key 66; refuted for every enclave |
| C166 | induction over the history: the entry is the one of the last registration, or it was removed at a time when that was overdue; time does not go back |
| C167 | the entry after a renewal (C166) compared with the one before, whose time is not in the future (C26) |
| C168 | invariant: the first signer stays first unless root purges it; then C166 for the registration and C41 for the acceptance |
| C169 | invariant: a listed signer stays listed unless root purges it; then C166 for the registration and the exact conditions of acceptance (C105) |
| C170 | induction over histories that contain upgrades; C65 for the storage right after them, then C12 and C19 on the history that follows |
| C171 | for each call a list of readings that decides, from the exact acceptance conditions (`accepts_iff`); for four calls it is false, shown by readings that every such list has to contain |
| C172 | induction over histories: an accepted operation changes collateral exactly if it registers it; the documents determine what is stored; a quote is then compared through the acceptance condition of the registration |
| C173 | induction over histories: each accepted operation either writes nothing and leaves the value, or leaves exactly what it writes |
| C174 | the same induction, with the state of each operation; lookup in the list after touching and purging |
| C175 | induction over histories; membership and order of the status list against the number of the operation with which an account joined |
| C176 | induction over histories, for all later blocks at once; an update replaces whatever is pending at its block |
| C177 | one lemma over all operations on the changed entries (from the inversion lemmas), then induction on the history |
| C178 | inversion lemmas of all calls against the missing role; the roles of the group are an invariant of its histories |
| C179 | root's calls against the acceptance condition of every shard call (C105), effect of purges, frame lemma for the repair |
| C180 | inversion lemmas of all calls with origin root; induction on the history |
| C181 | no entry into a shard whose configuration names other code; the code of the group and the configurations are invariants of its histories |
