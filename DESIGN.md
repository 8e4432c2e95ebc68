# Design of the formal model

Subject: Meta-Pool/meta-vote-contracts (Rust, NEAR smart contracts) in `/repo`.
Model and proofs: Lean 4 in `/verif/lean`, modules under `Verif/`.  Properties: `properties.jsonl`.  Theorems per
property: `MANIFEST.json`.  Wrong programs tried against the theorems: `seeded/LOG.jsonl`.
There, `theorems_failed` lists every property theorem whose proof breaks or rests on a lemma whose proof breaks
(`seeded/mutate.py` finds them); `first_broken` the ones that break first.  A broken proof shows that the theorem
depends on the edited definition, not by itself that its statement became false.

## 1. What is modelled, and how

All four contracts of the workspace are modelled, function by function.  Every definition of the model cites the file and
lines it models.

| contract in `/repo` | model | theorems |
|---|---|---|
| `meta-vote-contract` | `Verif/MetaVote/{Types,Voter,Internal,Lib,Withdraw,Deposit,EvmDelegate,Step,Views}` | `Verif/Props/{Power,Votes,Funds,Transfers,Deposits,Positions,Mirror,Access,Delegation,Views,Migration,Exit,Rounding,Accepted,MirrorOrder}` |
| the same, with vote maps as they are stored | `Verif/Storage/{Cells,Keys,Contract,Views}` | `Verif/Props/Storage*` |
| `mpip-contract` | `Verif/Mpip/{Types,Lib,Step,Views}` | `Verif/Props/{MpipVotes,MpipProposals,MpipAccepted,MpipReplay}` |
| the same, with all collections as they are stored | `Verif/MpipStorage/Contract` | `Verif/Props/MpipStorage` |
| `kv-store-contract` | `Verif/Kv/Model` | `Verif/Props/{Kv,SmallAccepted}` |
| `test-meta-token` | `Verif/Token/{Model,Events,Bytes}` | `Verif/Props/{Token,TokenLedger,TokenEvents,TokenBytes,SmallAccepted}` |
| mpip with meta-vote | `Verif/Joint/Governance` | `Verif/Props/Governance` |
| mpip with meta-vote, in JSON on bytes | `Verif/Joint/Bytes` | `Verif/Props/JointBytes` |
| near-sdk collections over bytes | `Verif/Disk/Model` | `Verif/Props/Disk` |
| Borsh, stored records | `Verif/Borsh/Codec`, `Verif/Borsh/Types` | `Verif/Props/Borsh` |
| key-value store on bytes | `Verif/Borsh/Handle`, `Verif/Borsh/Typed`, `Verif/Kv/Bytes` | `Verif/Props/KvBytes` |
| meta-vote on bytes | `Verif/Borsh/{Cells,Vec}`, `Verif/MetaVote/{Bytes,BytesView}` (relation to the collections: `Verif/Base/Rel`, `Verif/MetaVote/Bytes{Rep,Ops,Voter,Lock,Rest,Delegate,Vote,Step,World,Trace}`) | `Verif/Props/MetaVoteBytes` |
| meta-vote with its two tokens | `Verif/Joint/Tokens` | `Verif/Props/{Solvency,Wealth,WealthSt}` |
| meta-vote with its two tokens, in JSON on bytes | `Verif/Joint/TokenBytes` | `Verif/Props/{SolvencyBytes,WealthBytes,WealthStBytes,Arrives,Credited}` |

* **Contracts as state machines.** A contract is a Lean structure with the fields of the Rust struct; a Rust function is a
  Lean function of the same name in the error monad `Res = Except Panic`.  A Rust panic (failed `require!`, `assert!`,
  `expect`, `unwrap`, overflow, index out of range) is `Except.error`.  A call that panics leaves the state as it was,
  because NEAR discards the changes of a failed receipt.
* **Integers** are `Nat` with explicit checks.  The workspace is built with `overflow-checks = true`
  (`/repo/Cargo.toml`), so `+ - *` become `addU128`, `subU`, … which fail exactly where Rust panics.  `saturating_sub` is
  subtraction on `Nat`.  Casts are modelled with their truncation or panic.  Arguments outside their Rust type are rejected
  by the dispatcher (JSON error).
* **Collections.** `UnorderedMap` is `UMap` (`Verif/Base/UMap`): a list of entries without repeated keys in the iteration
  order of near-sdk (insert appends or replaces in place, remove is a swap-remove).  `Vector` is a `List` with `swap_remove`.
  `LookupMap` is a `UMap` of which only lookups are used.  For the vote maps of meta-vote, whose handles are nested in other
  maps, this is not faithful (section 4); they are modelled again at the level of storage entries in `Verif/Storage`.  For
  mpip it is: the contract is modelled again over storage entries in `Verif/MpipStorage`, and has the same executions [C79].
* **Environment.** `Ctx` carries current account, predecessor, signer, attached deposit, block time and the promise result.
  The wrappers of `near_bindgen` (payable, private, init) are part of the dispatcher `exec`.
  For `#[init]` the macro adds its own test that no state exists, the same condition as the `assert!` of the source;
  only the message of that panic may differ.
* **Asynchrony.** Outgoing cross-contract calls are values.  A `World` is the state, the receipts in flight and the log of
  accepted calls; a step is any accepted call by anybody or the delivery of any receipt in flight with any result.  Reachable
  worlds (`Reach`) are those of all such schedules, without bound on length.
* **Other accounts** are unconstrained: a caller may be any account id, including contracts, except that no call comes from
  an id ending in `.evmp.near`.  meta-vote uses these ids for mirrored EVM accounts (`utils.rs`) and relies on nobody owning
  them.
* **Specifications** are stated with the public views or with small definitions in `Verif/Spec`, which do not use the
  functions of the contracts.  Property theorems are in `Verif/Props`, apart from the lemmas, with an `example` that meets
  the hypotheses beside each.

Layers used by the proofs:

* `Reach`, `Inv`, `Inv2`, `Frame`, `Config`, `Edit`, `VoteEffects`: what every accepted call does, and invariants of all reachable worlds.
* `Guard` (`ReachG`): executions in which users avoid some calls, for properties that the code has only then.
* `Loose` (`LReach`): executions in which voting calls may do anything to votes and voting power.  What holds of them
  holds both of the model with plain maps and of the model over storage.
* `Storage/Refine`, `Storage/Simulate`: simulation between the model over storage and the model with plain maps.
* `MpipStorage/Store`: a function from states of mpip to storage that commutes with every method and view.
* `Mpip/Bytes`, `BytesRep`, `BytesStep`, `BytesWorld`, `BytesView`: mpip as a program over the bytes of its storage, and its
  refinement of the model with plain maps (C93).
* `Storage/Loose`, `Storage/Power`, `Storage/Length`: what holds over storage in all executions.
* `Disk/Refine`: simulation between one table of bytes and separate collections.
* `MetaVote/Ranges`: every number of a reachable state is in the range of its type.
* `Trace` files run concrete executions, for examples and counterexamples.

## 2. Properties

Status: *proved* for everything the property ranges over; *partial* means that the statement as a user would expect it is
false of the code or of its storage, that the negation is proved with a concrete reachable execution (`…_false`), and that
the strongest version found is proved (`…_partial`).

| id | model | how it is proved | status | result |
|----|-------|------------------|--------|--------|
| C01 | `calculate_voting_power`, u128/u256 arithmetic | exact value and exact rejection; `Nat.div` lemmas | proved | Exact value, exact rejection conditions, monotonicity and splitting. |
| C02 | all calls of meta-vote; storage model | inductive invariant `VInv` over all executions; refinement for storage; counterexample over storage | partial | False of the code (C02_storage_false). Proved for the model in which the vote maps are values, and, through the refinement C73_refines_partial, over the contract storage for executions in which no account withdraws its last funds while it has votes and the voter-app ids in use are distinct (C02_storage_partial). |
| C03 | same | inductive invariant; refinement; counterexample over storage | partial | False of the code (C03_storage_false). Proved for the model in which the vote maps are values, and over the contract storage for executions in which no account withdraws its last funds while it has votes and the voter-app ids in use are distinct (C03_storage_partial), and for one voter who votes with power and whose name overlaps with no other voter's, whatever the others do (C102_power). |
| C04 | same | counterexample execution; invariant of the gap (`Exact`) under the guard | partial | The property is false of the code (C04_false: unlocking an unlocking position burns its power again). The equality is proved for all histories in which that voter unlocks only locked positions; other voters are not restricted. Over the contract storage (C04_storage_partial) also under the conditions of C73_refines_partial. |
| C05 | same | inductive invariant; over storage the invariant `Backed` | partial | Proved for the model in which the vote maps are values. False over the contract storage (C05_storage_false: two voters share a vote map). There, in all executions: totals can be read, and available power of all voters plus all votes counted never exceeds the total (C05_storage_partial); and the equality under the conditions of C73_refines_partial (C05_storage_sum_partial). |
| C06 | meta-vote, receipts in flight, log | ledger invariant over all executions, also loose (`LReach`) | proved | Exact equation for all reachable worlds, also over the contract storage; C06_nothing_stranded removes the stranded term when the net receipts fit a u128; C06_transfers gives the destination of every transfer. Amounts credited by migrations are counted as defined in Spec/Ledger. |
| C07 | same | ledger invariant | proved | Exact equation for all reachable worlds, including histories in which the stNEAR token is replaced; C07_token for histories that keep it. |
| C08 | same | inductive invariant `CInv` | proved | For all reachable worlds, through the paging views. |
| C09 | `distribute_for_claims` | induction on the list | proved | Exact effect and frame, and exact acceptance for both tokens. |
| C10 | timed executions | potential function: what can leave before a date (`Unbond`) | proved | For every reachable starting world, account that is not mirrored, D, and every sequence of steps inside the window. |
| C11 | all calls | inductive invariant with the `as u8` cast | proved | For all reachable states. |
| C12 | all calls | counterexample; invariant max+1 | partial | The property is false of the code (C12_false: votes in max+1 apps). The bound max+1 is proved for all reachable states, also over the contract storage (C12_storage_partial). |
| C13 | all calls | counterexample; effect of every call on every vote (`VoteEffects`) | partial | The property is false of the code (C13_false: rebalance lowers a locked-in vote). Proved: every accepted call other than a non-zero rebalance of that very vote and an operator mirroring keeps it; over the contract storage if no account withdraws its last funds while it has votes and the voter-app ids in use are distinct (C13_storage_partial). |
| C14 | vote | exact effect and acceptance | partial | False over the contract storage (C14_storage_false: the vote of one voter changes the votes of another one with an overlapping name). Effect, frame and exact acceptance condition for the model in which the vote maps are values; effect and frame also over the contract storage (C14_storage_partial), if no account withdraws its last funds while it has votes and the voter-app ids in use are distinct. For one voter, whatever the others do: C102_own, C102_others. |
| C15 | unvote | exact effect; round trip | partial | False over the contract storage (C15_storage_false). Effect, frame and the round trip vote/unvote for the model in which the vote maps are values; effect and frame also over the contract storage (C15_storage_partial), if no account withdraws its last funds while it has votes and the voter-app ids in use are distinct. For one voter, whatever the others do: C102_own, C102_others. |
| C16 | rebalance | exact effect | partial | False over the contract storage (C16_storage_false). Effect and frame for the model in which the vote maps are values, and over the contract storage (C16_storage_partial), if no account withdraws its last funds while it has votes and the voter-app ids in use are distinct. For one voter, whatever the others do: C102_own, C102_others. |
| C17 | unvote | counterexamples; acceptance from the invariant | partial | False of the code for votes of power zero (C17_false), and over storage even for others (C17_storage_false; C74_storage_held: such a vote cannot be brought below the missing amount by anything the voter does). Proved for every non-zero vote in the model in which the vote maps are values, and over the contract storage if no account withdraws its last funds while it has votes and the voter-app ids in use are distinct (C17_storage_partial). |
| C18 | dispatcher | inversion of every privileged call against `Spec/Access` | proved | Necessary conditions for every privileged call; exact acceptance for the owner's configuration calls. |
| C19 | dispatcher | footprint of every call; function of the history | proved | Exact: one step, histories, and the parameters without setter. |
| C20 | dispatcher; storage model | footprint of every call; counterexample over storage | partial | Every call and state in the model in which the vote maps are values (C20_isolation). Over the contract storage it is false for votes (C20_storage_false: two voters whose vote-map ids coincide); there it is proved for balances, positions, voting power and claims (C20_storage_partial), and for votes if no account withdraws its last funds while it has votes and the voter-app ids in use are distinct (C20_storage_votes_partial). |
| C21 | delegation | inductive invariant; exact effects | proved | Every reachable state; exact effect and acceptance of confirmations and revocations. |
| C22 | delegation | equality with the direct call of the pseudo account; function of the history | proved | Every reachable state; exact equivalence with the same call of the pseudo account, and the delegate as a function of the history. |
| C23 | withdraw and callback | effect in the state of the callback | proved | For every transfer in flight in every reachable world; the restoring callback needs the amounts owed to fit a u128 (hypothesis). |
| C24 | withdraw | induction on the index list | proved | Exact effect and frame. |
| C25 | withdraw_all | exact | proved | Exact: accepted iff one yocto is attached and get_balance answers a positive amount (C25_accepted); the voter record disappears exactly as stated by Withdrawn.gone. |
| C26 | clear | swap-remove lemmas, induction | proved | Every index list, including duplicated and out of order indexes. |
| C27 | paging views | slices of the list of entries; counterexamples | partial | Proved for get_voters, get_claims, get_stnear_claims and get_airdrop_accounts in every state of the model in which the vote maps are values. C27_info: the answer for one account agrees with the other views, registered or not. False of get_delegates (C27_false: it panics at the end of the list and when from+limit overflows u32); its exact behaviour is C27_delegates_partial. False of get_voters over the contract storage when two vote-map ids coincide (C27_storage_false); there proved under the conditions of C73_refines_partial (C27_storage_partial). |
| C28 | migration | counterexample; what is stored | partial | The property is false of the code (C28_false). Proved: the data is registered under the calling contract, once; also over the contract storage. |
| C29 | migration | induction on the list | proved | Every list of positions and state; exact, period by period, with the frame. |
| C30 | all calls | counterexample; invariants by elementary edits (`Edit`, `PosInv`) | partial | The property is false of the code (C30_false: extending a locked position ignores the upper limit). Proved: periods are always below 3600 days; what each call may install; and both limits for all histories without extensions and changes of the limits, also over the contract storage. |
| C31 | all calls | same | partial | The property is false of the code (C31_false: extending onto the period of another locked position). Proved for all histories in which no extension lands on the period of another locked position, also over the contract storage. |
| C32 | all calls | same | partial | The property is false of the code (C32_false: re-locking the small remainder of a partial re-lock). Proved for all histories in which relock_position and migrations are only used for at least the minimum, also over the contract storage. |
| C33 | relock calls | exact effect | proved | Exact effect and frame of relock_position, relock_partial_position and relock_from_balance. |
| C34 | unlock | counterexample; acceptance under the gap invariant | partial | The property is false of the code (C34_false). Proved for all histories in which that voter unlocks only locked positions; over the contract storage (C34_storage_partial) also under the conditions of C73_refines_partial. |
| C35 | unlock calls | exact effect | proved | Full and partial unlock, with the frame, for every reachable state, also over the contract storage. For the full unlock of a position that is already unlocking the same effect is proved (the power is burnt again, see C04). |
| C36 | extend | exact effect | proved | Exact effect and frame. |
| C37 | mirroring | loop invariant, termination measure; counterexample | partial | Exact effect for every reachable state (C37_mirrored), including which votes are taken back and in which order (C37_taken); acceptance and termination for accounts without votes of power zero (C37_accepted_partial), the exact condition is in C76_accepted; with such a vote the removal loop can panic (C37_false). The effect is also proved over the contract storage, if no account withdraws its last funds while it has votes and the voter-app ids in use are distinct (C37_storage_partial). |
| C38 | `ft_on_transfer` on byte strings | case analysis; exact acceptance | proved | Exact effect, frame and acceptance, also over the contract storage. |
| C39 | claim and lock | exact effect | proved | Exact effect and frame. |
| C40 | stNEAR claims | exact effect; callback | proved | Exact effect, acceptance of claim_stnear, and the callback. |
| C41 | views | case analysis on time | proved | For every position, time and state. |
| C42 | airdrop data | footprint of every call | proved | Every call and state. |
| C43 | bytes of storage keys | prefix-freeness of the encoding | proved | Byte level. The hash is a parameter with 32-byte values; C43_prefix and C43_keys assume it does not confuse the two ids at hand, C43_any_hash assumes nothing. |
| C44 | ids of vote maps | counterexample; injectivity lemmas; shape of overlaps | partial | False of the code (C44_false): the ids of (eve, x-app) and (eve-x, app) are the same. Proved: distinct ids for names without '-' on one side, for the same voter, and the exact form of an overlap. |
| C45 | `migrate` | equality of the views | proved | Exact; decoding of the stored bytes is an input of the model (see DESIGN.md). |
| C46 | mpip with receipts in flight | counterexample; invariant; value as a function of the log | partial | False of the code (C46_false: two votes of one voter in flight). Proved: tallies are never below the recorded sums (C46_at_least), the exact value from the log (C46_exact), and equality when nobody votes on a proposal while an earlier vote of theirs on it is in flight (C46_partial). |
| C47 | same | counterexample; invariant under the guard | partial | False of the code (C47_false). Proved for histories without overlapping votes of one voter on one proposal; one listed vote per voter always. |
| C48 | same | inductive invariant | proved | For all reachable worlds. |
| C49 | same | counterexample; origin of the questions in flight (`Pending`) | partial | False of the code (C49_false: the callback does not check the window). Proved: the call that led to the count was accepted in the window. |
| C50 | remove vote | exact effect; inverse | proved | Exact effect, acceptance and vote-then-remove. |
| C51 | proposals | inductive invariant | proved | Below 2^32 proposals, as stated in the property. |
| C52 | proposals | step theorem; counterexample; guard | partial | Each step keeps the text after the start (C52_step). Over histories false of the code (C52_false: a second start in flight moves the start), proved when no proposal is started twice. |
| C53 | proposals | inductive invariant | proved | Below 2^32 proposals. |
| C54 | start of voting | exact effect | proved | Every step that changes a quorum. |
| C55 | `get_proposal_state` | case analysis against the documented states; counterexample | partial | Proved while for and abstain votes together fit u128; beyond that the view panics (C55_false). |
| C56 | execution | counterexample; necessary conditions | partial | False of the code (C56_false: majority not checked). Proved: who, when and quorum. |
| C57 | execution | counterexamples; acceptance in the last millisecond | partial | False of the code (C57_false, C57_never: nothing happens after the last millisecond). Proved in exactly the last millisecond. |
| C58 | dispatcher | inversion of every call | proved | Every call. |
| C59 | create | origin of the answer; step theorem | proved | Every step that adds a proposal. The power asked for is that of the predecessor of the call, the creator is its signer. |
| C60 | window | counterexample; guard | partial | False of the code (C60_false). Proved when no proposal is started twice. |
| C61 | key-value store | refinement to a function of the log | proved | the stored value after any history is the last accepted write |
| C62 | key-value store | inversion of every call | proved | roles change only by the owner, writes only by the operator or owner as coded |
| C63 | key-value store | slices | proved | paging of keys and values |
| C64 | token | inductive invariant | proved | for every duplicate-free list of accounts containing all accounts with a balance; methods of near-contract-standards modelled from its published source |
| C65 | token | effect of every call | proved | mint, minters, owner, burn; near-contract-standards modelled from its published source |
| C66 | meta-vote and two tokens, all receipts | invariant of the joint system | proved | Joint system of meta-vote, the mpDAO and the stNEAR token (two instances of the token model) and all receipts in flight. Assumed, as in the statement: mpDAO is sent to the contract before it is credited by a migration; the stNEAR token is not replaced; tokens call meta-vote only by transfer-calls; nobody uses the key of the contract to call the tokens. Meta-vote takes the steps of the loose executions, so the storage executions (with collisions of vote maps) are covered too. |
| C67 | mpip and meta-vote | joint system; the answer is computed between call and callback | proved | For the joint system of both contracts (C67_locked, C67_quorum), with the answer computed in any state between call and callback. The power equals available plus used power and is bounded by the total when only locked positions were ever unlocked in meta-vote (C67_bounded). |
| C68 | meta-vote, receipts in flight, log | ledger invariant per account | proved | For all reachable worlds. |
| C69 | delegation | counterexample; invariant | partial | The property is false of the code (C69_false: anybody may replace the pending request). Proved when no other request for the address is accepted in between, also over the contract storage. |
| C70 | views; storage model | permutation and sortedness; counterexample over storage | partial | Every state of the model in which the vote maps are values. Over the contract storage the lists per app are right in every execution (C70_storage_by_app); the lists per voter can become unreadable (C70_storage_false) and are right if no account withdraws its last funds while it has votes and the voter-app ids in use are distinct (C70_storage_by_voter_partial). |
| C71 | token | effect of every call | proved | near-contract-standards modelled from its published source |
| C72 | token | exact effect | proved | near-contract-standards modelled from its published source |
| C73 | storage model | simulation; counterexample | partial | False of the code (C73_false): a voter with a zero-power vote who withdraws and comes back reuses stale storage and takes away votes of others. Proved (C73_refines_partial): in all executions in which no account withdraws its last funds while it has votes, and the voter-app ids in use are distinct, the contract over storage does exactly what the model with plain maps does. The first condition holds whenever every vote has power (C73_powered). |
| C74 | MetaVote, Storage | existence of an execution: induction on votes, then on positions; counterexample: invariant of all later executions | partial | False of the code (C74_false: after unlocking an unlocking position some funds are locked for ever, whatever anybody does). Proved for every voter who never did that, with any number of votes and positions; over storage (C74_storage_partial) under the conditions of C73_refines_partial. Over storage it is false even for a voter who made one deposit and one vote (C74_storage_false): if somebody else took votes out of the total of an object (C73_false), a voter of that object keeps votes of at least the difference and cannot unlock the power they use, whatever they do, until somebody else votes for the object (C74_storage_held). |
| C75 | MetaVote, Storage | invariant with an error count per voter | proved | C75_close and C75_units, also over storage (C75_storage). Exact equality does not hold (C75_not_exact). |
| C76 | MetaVote, Storage | inversion of every method in both directions, under the invariants of reachable states | partial | False over the contract storage (C76_storage_false: a voter who left with a vote of power zero and came back cannot vote). C76_accepted: on every reachable state of the model with vote maps as values, every call is accepted iff MayCall holds. C76_frees: what the index lists of clear_locking_position and withdraw free, for distinct indexes. C76_storage_partial: the same over storage, only in the executions in which C73 holds. |
| C77 | Mpip | inversion of every method in both directions, under the invariants of reachable states | proved | C77_accepted: for every method and callback of mpip, in every reachable state, accepted iff MayCall (Spec/MpipAccept). |
| C78 | Token, Kv | inversion of every method in both directions; supply = sum of balances ≤ 2^128 - 1 | proved | C78_kv: every state of the store; C78_token: every reachable state of the token. MayCall of Spec/SmallAccept is stated with views only. |
| C79 | Mpip, MpipStorage | bisimulation: a function from states to storage commutes with every method and view | proved | C79_exec: each call over storage entries does exactly what the call on values does, including panics; C79_reach: the reachable worlds over storage are exactly the stored reachable worlds, so every theorem about mpip holds over storage; C79_views: all views; C79_votes: the resulting statement in terms of views. The hash is assumed without collisions. |
| C80 | Mpip | replay of the log of accepted calls and replies; induction over executions, one case per entry point | proved | C80_init: settings after the initialization; C80_settings: the exact effect of each accepted call on the settings, and its promises; C80_replay: settings and proposals computed from the whole history; C80_views: the views of the settings. Tallies and single votes are C46 to C48. |
| C81 | Token | a plain ledger; one case per entry point, induction over the history | proved | C81_call: one accepted call in a reachable state, with its promises; C81_history: from the initialization over any list of accepted calls, stated through the views. |
| C82 | MetaVote, Storage | plain tables (Spec/Book); inversion of every method, induction over the history; refinement for storage | partial | C82_call: complete effect of every accepted call, with its transfers; C82_history: the books after every history; C82_views: views that list no accounts, apps or objects depend on the books only. These are for the model in which the vote maps are values; over the contract storage (C82_storage_partial) only in the executions in which C73 holds. C82_storage_false: false over storage in general, since votes left behind by a removed account are used again. |
| C83 | MetaVote | bisimulation from C76 and C82 | partial | C83_call, C83_step, C83_steps: same books, same future, for the model in which the vote maps are values. C83_storage_false: false of the contract over storage, two contracts with the same records and the same lists of votes of which only one accepts a call, because votes left behind by a removed account come back although they are in no list. |
| C84 | MetaVote/Logs | induction over executions with lines; a reader of the text | partial | C84_votes: the votes of everybody are those told by the lines; C84_paid: the payments told are the payments executed; C84_deposits; C84_mirror: the exact lines of a mirroring; C84_lines: every line is true of the state before and after its call, and none is missing. C84_text_lines_partial, C84_text_paid_partial: every line, and every payment made or failed, can be read back from the text; C84_text_partial, C84_same_partial: the same from the text alone, read by the reader of Spec/Logs, if no voter or app in it has a space in its name; C84_text_false: without that the text is ambiguous. For the model in which the vote maps are values; over storage a removed account may get back votes that no line tells (C82_storage_false). |
| C85 | Mpip | case analysis over all methods; bisimulation from C77 | proved | C85_call: complete effect of every accepted call and reply on settings, proposals, tallies and votes, with its promises; C85_history: the books after every history; C85_same, C85_steps: contracts with the same books accept the same and stay the same; C85_views: the views show the books, lists up to order (lists of own proposals below 2^32 proposals). For the model with plain tables; over storage by C79. |
| C86 | Mpip, MetaVote | induction over executions; concrete executions for the negations | partial | meta-vote: C86_price_partial: exact price of every call but one; C86_sends, C86_ledger: one yocto to the token for each payment and nothing else; C86_price_false: delegated_claim_stnear takes any deposit and keeps it. mpip: C86_mpip_taken, C86_mpip_sends, C86_mpip_ledger, C86_mpip_orders: what comes in and what goes out in every execution; C86_false: the deposit of a proposal that is not created never comes back unless the admin pays it. Refunds by the protocol for failed receipts are not counted. |
| C87 | Disk | simulation between one table of bytes and separate tables, by induction over the operations | proved | C87_answers, C87_rest, C87_bytes: for any family of collections whose elements have different keys, operations on the bytes of storage answer as separate tables, leave the rest of storage alone, and leave bytes that depend on the contents only. C87_meta, C87_mpip, C87_kv, C87_token: the collections of the four contracts are such families, and none of their keys is the one of the contract state. The code of the collections is that of near-sdk, modelled from its published source. A collection that is created anew over old entries (with the length of an empty one) is not among the operations; see C73 for that. |
| C88 | Borsh, MetaVote | codecs with a two-sided law closed under pairs, lists and options; ranges by induction over executions | proved | C88_position, C88_voter, C88_state, C88_old, C88_vote, C88_proposal, C88_tally, C88_mpip, C88_kv, C88_token, C88_values: reading gives a value exactly for the bytes that writing it gives. C88_migrate, C88_once: the migration on bytes. C88_numbers: every number of a reachable meta-vote state fits its type (for mpip this is part of C93). The format is modelled from the specification of Borsh. The metadata of the token is in C91. |
| C89 | Kv, Borsh, Disk | typed maps over bytes refine UMap; calls and views on bytes refine those of Kv/Model; history by induction | proved | C89_call: each call on the bytes of a state answers as the model, panic messages included, and leaves the bytes of the next state and the rest of the storage. C89_views: all views. C89_history: from installation, against a separate specification of who may call, the answers and the values. near-sdk's collections and Borsh are modelled from their published behaviour; the JSON coding is in C96 to C101. |
| C90 | Token | lines of a call as a function of the state and the call; conservation of balance + taken = given per step, by induction over executions that carry their log | partial | C90_call: the lines of an accepted call tell its effect. C90_lines: whole history. C90_exists: the executions that write lines are all executions. C90_false: the events of the standard alone do not suffice, because a forced storage_unregister burns the balance without FtBurn (lib.rs:244-245 only writes a text line); C90_events_partial: they suffice if no account with a balance was closed. The lines of FungibleToken are taken from the published source of near-contract-standards. |
| C91 | Token, Borsh, Disk | methods on storage and methods of the model related step by step (same panic or related results); history by induction with C90 | proved | C91_call: each call on the bytes of a state does what the model does, panic messages, promises and lines included. C91_views, C91_new, C91_new_refused. C91_paid: what is held for an account pays for its entry (125 bytes of at most 1+4+64+16+40). C91_history: from installation, with the lines as the only specification of balances and supply. FungibleToken, LookupMap, LazyOption, Borsh and the 40 bytes per entry are modelled from their published behaviour; the JSON coding is in C96 to C101; gas is not modelled. |
| C92 | MetaVote/Bytes*, Borsh, Disk | representation relation between bytes and collections, kept by every operation on a collection; methods related step by step (same panic or related results); histories by induction; with C73 on to plain maps | proved | C92_call, C92_install, C92_once, C92_reach: refinement, panic messages, transfers and untouched keys included, from bytes to the contract over its collections, for every history. C92_views_*: every view. C92_upgrade: migrate on the storage of the version before, in which every other call panics. C92_maps: on to the model with plain vote maps, under the two conditions of the statement; without them it is false (C73). Hashes of ids are assumed not to collide; gas is not modelled; log lines are those of C84, from values. |
| C93 | Mpip/Bytes*, Borsh, Disk | representation relation between bytes and plain maps, kept by every operation on a collection; methods related step by step (same panic or related results); histories by induction | proved | C93_call, C93_install, C93_once, C93_reach: refinement, panic messages, promises and untouched keys included, from bytes to the model with plain maps, for every history. C93_views_*: every view. C93_votes: C46, C47 and C48 read off the bytes. Hashes of names are assumed not to collide; gas is not modelled. |
| C94 | Serde/*, Joint | writer and reader of JSON with a round-trip law by induction on values; argument and result types as pairs of writer and reader; refinement of the joint system with a decoder as parameter | proved | C94_positions, C94_total, C94_callback: each message is read as written; C94_joint: joint histories in JSON are joint histories of C67; C94_locked, C94_quorum, C94_counts: the conclusions. JSON writer and reader modelled in Serde (see DESIGN). |
| C95 | Serde/*, MetaVote, Token | round-trip laws at the types of the messages; bounds on pending payments from the ledger invariant | proved | C95_payment, C95_callback, C95_notify: messages between meta-vote and a token; C95_days, C95_for_other, C95_only_owner, C95_claims: the three forms of the message of a transfer-call. JSON writer and reader modelled in Serde. |
| C96 | Serde/* | round-trip laws of the argument lists; permutation lemma for members; histories by induction | proved | MetaVote, Mpip, Token and Kv: C96_written, C96_typed, C96_order; C96_reach: histories in JSON are histories of the model; C96_call: and conversely for single calls. |
| C97 | Serde/Run | invariant over histories in JSON; isolation (C20) and the ledger of each account (C68) | partial | C97_accounts_partial: the configured accounts; C97_payment: the payments; C97_named_partial: nothing is held or owed for an id that no message named. The rest is false: C97_no_account_false, an owner's deposit and a distribution name an id with a capital letter, both are accepted; C97_stuck: what is held or owed for such an id never goes down, whoever calls what, so it is lost. |
| C98 | Serde/*Views, *Fit | views by name with their answer types as writer and reader; every answer of a reachable state fits its type, from the range invariants | proved | MetaVote, Mpip, Kv and Token: C98_asked: every question is read as written; C98_typed, C98_order: any input; C98_answer: a client reads the value of the view and is refused when the view refuses; C98_any: every answer to any input is the value of the view. All views but ft_metadata. |
| C99 | Serde/*BytesApi, Props/*EndToEnd | JSON histories on bytes are byte histories (inputs read, callbacks written and read back), composed with C89, C91, C92, C93 and C98 | proved | C99_reach: JSON histories on bytes are histories of calls on bytes; C99_call: one JSON call on bytes is refused as in the model or leaves the bytes of the resulting state; C99_client (all four contracts): any JSON history from the JSON installation is an execution of the model and every view answered in JSON on the bytes is the JSON value (Spec/Interface) of that view. For MetaVote the model is the one over the storage of the vote maps, for every history; C99_client_partial (MetaVote) is the stronger consequence, against plain maps, while nobody withdraws the last funds of an account that still has votes (C92 says why it needs that). |
| C100 | Spec/Interface, Serde/Given, Props/Interface | signatures transcribed from the Rust source as relations that use only the JSON reader; every rule is accepted by the readers of arguments and every accepted input comes from a rule | proved | MetaVote, Mpip, Kv and Token: C100_call, C100_asked: an input with the arguments of a signature is read as that call or question; C100_only, C100_questions: nothing else is accepted; C100_written, C100_payment, C100_query, C100_messages: what the contracts write to each other; C100_answer: the JSON value of every answer; C100_init: installation. |
| C101 | Spec/JsonText, Serde/Grammar, Props/JsonText | the grammar of RFC 8259 as inductive relations between texts and values; the reader is sound and complete for it (induction on derivations, and on the fuel and depth of the reader); messages of transfers read back through it | proved | C101_exact: the reader accepts exactly the texts that the grammar derives with at most 127 levels and gives their value; C101_one: a text has one value; C101_written: what is written is a text of the value; C101_args: inputs of methods are objects or arrays; C101_messages: the two kinds of JSON messages, both directions; C101_deposit: messages of accepted transfers. |
| C102 | Storage/Own, OwnStep, Props/VoterVotes | non-interference: regions of storage that a call of another voter can write, and an invariant for one voter alone, by induction over executions over storage | proved | C102_votes, C102_bound: the votes shown against the accepted calls; C102_power; C102_list; C102_own and C102_others: effect of the next call. Over the storage of the vote maps (C73), in every execution; the two conditions are on the log alone. C102_bytes: the same read from the bytes of storage; C102_json: as told to a client in JSON, for every JSON history. |
| C103 | Mpip/Ids, Props/ValidIds | invariant of executions in JSON on the bytes of storage, one per contract, on the record that is read back | proved | One theorem C103_record per contract, on the JSON executions on the bytes of storage (C99): the record under STATE is read back and its account ids satisfy the syntax of account ids; for mpip also the creators in get_proposal and get_proposals and the voters in get_proposal_votes. These are all account ids that are ever read from storage: the keys of the other maps are only written or compared (voters of meta-vote are plain strings). |
| C104 | Joint/Bytes, Props/JointBytes | invariant over interleavings of both contracts in JSON on bytes: every question and answer on the way, and every vote, quorum and proposal in the storage of mpip, carries the moment it came from; refinement to the value model of mpip step by step | proved | C104_vote, C104_quorum and C104_created, on the joint executions of both contracts in JSON on bytes (Joint/Bytes.lean). The meta-vote contract has to be the one that mpip named when the account called (Names), not before or after. The two clocks are not tied together, which only allows more executions. Other contracts that mpip may be pointed to answer anything. |
| C105 | Joint/TokenBytes, Props/SolvencyBytes | simulation: every step of the three contracts in JSON on bytes is a step of the joint model of C66 over the states the bytes hold; views of C97 and C99 read them back | proved | C105_answers, C105_reserves, C105_exact, C105_stnear, C105_payment, C105_refund and C105_nothing_stranded, on the joint executions of the three contracts in JSON on bytes (Joint/TokenBytes.lean). Gas is not modelled: a payment may also be lost for another reason (step lost), and is then given back. Both tokens are the token of the repository. Balances of mirrored accounts are not backed by the token and are left out, as in C66. |
| C106 | Props/Wealth, Props/WealthBytes | case analysis of the joint step: ledger of one account of C68, frame of the calls of the token, settlement of C72 | proved | C106_step is the statement for one step and C106_kept for any number, on the joint executions of C66; C106_told and C106_told_kept are the same on those of C105 (JSON on bytes), with the sum made of what the views answer and what is on its way. Not counted as the account's: deposits it makes for others, and deposits others make for it while they are on the way. |
| C107 | Props/WealthSt, Props/WealthStBytes | as C106; a claim is paid to the account it is debited from unless that is mirrored | proved | C107_step and C107_kept on the joint executions of C66; C107_told and C107_told_kept on those of C105 (JSON on bytes), with the sum made of what the views answer and what is on its way. Both tokens are the token of the repository. |
| C108 | Props/Arrives | effect of the accepted transfer and of each callback, with the bounds of C66 so that no callback overflows; transferred to bytes through the simulation of C105 | proved | Value level: C108_payment, C108_callback, C108_claims, C108_runs; on bytes: C108_paid, C108_back, C108_rest (locked, unlocking and claimable mpDAO are told as before), C108_runs. mirrored ids are excluded from the balance answers, as in C106. A payment of 0 stNEAR that fails gives back 0 by a panicking callback, which changes nothing. |
| C109 | Props/Credited | per-call conservation of what is owed to an account, rewritten through the partition of the answers (C41) and the simulation of C105 | proved | C109_call on the joint executions of C66; C109_told (any call) and C109_deposit (deposits of mpDAO) on those of C105 (JSON on bytes). What a call brings is creditOf and creditStOf of Spec/Ledger, read off the call alone. Mirrored ids are excluded, as in C106. |

## 3. Trusted base

* Lean 4.33 kernel.  The theorems depend on no axioms but `propext`, `Classical.choice` and `Quot.sound` (`#print axioms`;
  checked for all theorems of the manifest).  No `sorry`, no `native_decide`, no `bv_decide`, no axioms of our own.
  Counterexamples and examples are evaluated by the kernel (`decide +kernel`).
* The reading of the Rust code, as cited beside each definition.
* near-sdk and near-contract-standards, which are not in `/repo`: collections, dispatcher, receipts and the NEP-141 methods are
  modelled from their published source.
* NEAR: a failed receipt changes nothing; receipts are executed one at a time; a callback runs once, after the receipt it waits for.

Not modelled:

* Gas, storage staking and account balances in NEAR, apart from the deposits that are taken and sent (C86).  Running out of gas is covered
  to the extent that every receipt may fail.
* JSON.  In the models of the contracts `serde_json` is a parameter (any function from bytes to values).  `Serde/*` models the
  writer and the reader themselves, the argument structures of every method of the four contracts and the messages between
  contracts, the views of the four contracts with their answers, and C94 to C101 put them in the place of the parameter.  Not modelled there: floats are recognised but have no
  value; members that are not wanted are checked as strictly as the others (`serde_json` is laxer about ill-formed strings in
  them); `memo` of token calls is read and dropped.
* The borsh crate.  The executions of all four contracts are also modelled on the bytes of storage (C92, C93, C91, C89).
  The coding is modelled from its specification (`Verif/Borsh`), since the crate is not in `/repo`; C88
  shows that it loses nothing and that `migrate` fails on a state of the current layout, as `MetaVote/Step` has it.  The check
  that a stored account id is valid is left out; C103 shows that it never fails.
* keccak256 in storage prefixes: a parameter.  Theorems that need it assume no collision between the two ids at hand; in the
  storage model the regions are named by the strings that are hashed.
* Text that panics compute from values (`meta-vote-contract/src/lib.rs:391,454`, with `millis_to_days`, `utils.rs:14-17`): the model
  has a fixed message for each of these panics.
* The log of mpip (log lines: of meta-vote in MetaVote/Logs, of the token in Token/Events).
* Validation of account ids (done while decoding the arguments): an id is any string in the models of the contracts, which
  allows more executions.  It is part of the JSON layer (`Serde.validAccount`, C96 to C103).
* The value-level `UMap` is used for all maps that are fields of meta-vote, the token and the key-value store (created once),
  and a `List` for the positions of a voter, whose record is dropped only when it has none (`voter.rs:37-39`).

Assumptions of the joint models are listed in their headers: mpip keeps pointing to the given meta-vote contract (not needed in
Joint/Bytes.lean, C104, where only the address at the time of a call matters); the key of
meta-vote is not used to call the tokens; the tokens call meta-vote only through transfer-calls; the stNEAR token is not
replaced; mpDAO credited by a migration has been sent before; when meta-vote is installed, no transfer-call is in flight (C105).

## 4. What was found in the code

Each item is a theorem about the model (name in brackets) with a concrete execution.

meta-vote:

* Unlocking does not test that the position is locked: a position that is already unlocking can be unlocked again, which burns
  its power again and restarts the wait [C04_false, C34_false].  Power that is missing in this way is missing for ever, so
  part of the funds of the voter stays in locked positions whatever anybody does [C74_false].
* Each deposit to a position rounds on its own, so the power of a position can be less than the formula gives for its amount
  and period [C75_not_exact], by at most a unit of 10^-24 for each deposit or split [C75_units].
* Extending a locked position ignores the upper limit and may create a second locked position with the same period
  [C30_false, C31_false]; re-locking ignores the minimum deposit [C32_false].
* A voter may have votes in one app more than the configured maximum [C12_false].
* Votes of power zero are accepted and cannot be removed [C17_false]; they can make mirroring panic [C37_false].
* `rebalance` ignores the lock-in of votes [C13_false].
* User data sent with a migration is stored for the calling contract [C28_false].
* `get_delegates` panics at the end of the list [C27_false].
* Anybody may replace the pending request of an EVM address before the operator confirms it [C69_false].
* Apps are any strings, so two different votes may be written to the log with the same words [C84_text_false].
* Closing a token account by force destroys its balance and writes no burn event of the token standard [C90_false].
* `delegated_claim_stnear` takes and keeps any deposit [C86_price_false].
* Voters are any strings: the deposit of an owner and a distribution may name an id that no account can have, and what they
  bring can then never be taken out by anybody [C97_no_account_false, C97_stuck].
* *Stale storage.* `is_empty` ignores the votes of a voter (`voter.rs:37-39`), so a voter with a zero-power vote who
  withdraws everything is dropped while the entries of its vote map stay.  After coming back, the voter can remove votes
  that others gave to the app, take power back for them, and leave votes behind that nobody gave [C73_false,
  C02_storage_false]; the votes of others can then not be removed any more [C17_storage_false, C17_panics].
  What the contract accepts then depends on entries that no list shows [C82_storage_false, C83_storage_false].
* *Shared prefixes.* The id of a vote map is `voter-contract` (`voter.rs:105`), so voter `eve` voting for `x-app` and voter
  `eve-x` voting for `app` share one map [C44_false].  One can then spend more power than one has locked [C03_storage_false],
  change the votes of the other [C20_storage_false] and make views panic [C70_storage_false, C27_storage_false].
* Without either, the contract over storage does exactly what the model with plain maps does [C73_refines_partial]; the
  first cannot happen if every vote has power [C73_powered].  Funds,
  positions, claims, delegation and configuration are not affected in any execution [C06_storage_…, C07_storage_…,
  C10_storage, C11_storage, C19_storage, C20_storage_partial, C21_storage, C68_storage_…].

mpip:

* The callback of a vote does not test again whether the voter has voted or whether the window is open: two votes in flight are
  both counted, and only one is recorded [C46_false, C47_false, C49_false].
* The callback of a start does not test again: two starts in flight move the window, and text may change after the first
  start [C60_false, C52_false].
* `process_voting_status` acts only in the very millisecond in which voting ends, and ignores the majority [C56_false,
  C57_false, C57_never].
* For and abstain votes together may overflow, and the state of the proposal cannot be read [C55_false].
* The locked power asked for when a proposal is created is that of the predecessor, the creator is the signer [C59_created].
* The deposit of a proposal that is not created is kept, and so is what exceeds the price [C86_false].
* The admin test is on the signer: any contract that the admin calls can order payments [C86_mpip_sends].
* Ids are counted in u32.  Properties of ids are stated below 2^32 proposals.

test token: `set_owner_id` is payable but does not ask for a yocto.

Observed while reading, harmless: `clear_locking_position` with a repeated index may also clear a matured position that is
not listed; `claim_stnear` of 0 starts a transfer that fails.
