{
 "claims": [
  {
   "property": "C01",
   "status": "proved",
   "theorems": [
    "Verif.MetaVote.C01_formula",
    "Verif.MetaVote.C01_monotone",
    "Verif.MetaVote.C01_split"
   ],
   "note": "Exact value, exact rejection conditions, monotonicity and splitting."
  },
  {
   "property": "C02",
   "status": "partial",
   "theorems": [
    "Verif.MetaVote.C02_total_votes_partial",
    "Verif.MetaVote.C02_nonvoters",
    "Verif.Storage.C02_storage_partial",
    "Verif.Storage.C02_storage_false"
   ],
   "note": "False of the code (C02_storage_false). Proved for the model in which the vote maps are values, and, through the refinement C73_refines_partial, over the contract storage for executions in which no account withdraws its last funds while it has votes and the voter-app ids in use are distinct (C02_storage_partial)."
  },
  {
   "property": "C03",
   "status": "partial",
   "theorems": [
    "Verif.MetaVote.C03_power_le_locked_partial",
    "Verif.Storage.C03_storage_partial",
    "Verif.Storage.C03_storage_false"
   ],
   "note": "False of the code (C03_storage_false). Proved for the model in which the vote maps are values, and over the contract storage for executions in which no account withdraws its last funds while it has votes and the voter-app ids in use are distinct (C03_storage_partial), and for one voter who votes with power and whose name overlaps with no other voter's, whatever the others do (C102_power)."
  },
  {
   "property": "C04",
   "status": "partial",
   "theorems": [
    "Verif.MetaVote.C04_false",
    "Verif.MetaVote.C04_exact_partial",
    "Verif.Storage.C04_storage_partial"
   ],
   "note": "The property is false of the code (C04_false: unlocking an unlocking position burns its power again). The equality is proved for all histories in which that voter unlocks only locked positions; other voters are not restricted. Over the contract storage (C04_storage_partial) also under the conditions of C73_refines_partial."
  },
  {
   "property": "C05",
   "status": "partial",
   "theorems": [
    "Verif.MetaVote.C05_total_power_partial",
    "Verif.Storage.C05_storage_partial",
    "Verif.Storage.C05_storage_sum_partial",
    "Verif.Storage.C05_storage_false"
   ],
   "note": "Proved for the model in which the vote maps are values. False over the contract storage (C05_storage_false: two voters share a vote map). There, in all executions: totals can be read, and available power of all voters plus all votes counted never exceeds the total (C05_storage_partial); and the equality under the conditions of C73_refines_partial (C05_storage_sum_partial)."
  },
  {
   "property": "C06",
   "status": "proved",
   "theorems": [
    "Verif.MetaVote.C06_conservation",
    "Verif.MetaVote.C06_nothing_stranded",
    "Verif.MetaVote.C06_solvent",
    "Verif.MetaVote.C06_transfers",
    "Verif.Storage.C06_storage_conservation",
    "Verif.Storage.C06_storage_nothing_stranded",
    "Verif.Storage.C06_storage_transfers"
   ],
   "note": "Exact equation for all reachable worlds, also over the contract storage; C06_nothing_stranded removes the stranded term when the net receipts fit a u128; C06_transfers gives the destination of every transfer. Amounts credited by migrations are counted as defined in Spec/Ledger."
  },
  {
   "property": "C07",
   "status": "proved",
   "theorems": [
    "Verif.MetaVote.C07_conservation",
    "Verif.MetaVote.C07_nothing_stranded",
    "Verif.MetaVote.C07_token",
    "Verif.Storage.C07_storage_conservation",
    "Verif.Storage.C07_storage_nothing_stranded"
   ],
   "note": "Exact equation for all reachable worlds, including histories in which the stNEAR token is replaced; C07_token for histories that keep it."
  },
  {
   "property": "C08",
   "status": "proved",
   "theorems": [
    "Verif.MetaVote.C08_mpdao",
    "Verif.MetaVote.C08_stnear",
    "Verif.Storage.C08_storage_mpdao",
    "Verif.Storage.C08_storage_stnear"
   ],
   "note": "For all reachable worlds, through the paging views."
  },
  {
   "property": "C09",
   "status": "proved",
   "theorems": [
    "Verif.MetaVote.C09_effect",
    "Verif.MetaVote.C09_accepted_mpdao",
    "Verif.MetaVote.C09_accepted_stnear"
   ],
   "note": "Exact effect and frame, and exact acceptance for both tokens."
  },
  {
   "property": "C10",
   "status": "proved",
   "theorems": [
    "Verif.MetaVote.C10_unbonding",
    "Verif.MetaVote.C10_bound",
    "Verif.Storage.C10_storage"
   ],
   "note": "For every reachable starting world, account that is not mirrored, D, and every sequence of steps inside the window."
  },
  {
   "property": "C11",
   "status": "proved",
   "theorems": [
    "Verif.MetaVote.C11_locking_positions",
    "Verif.Storage.C11_storage"
   ],
   "note": "For all reachable states."
  },
  {
   "property": "C12",
   "status": "partial",
   "theorems": [
    "Verif.Storage.C12_storage_partial",
    "Verif.MetaVote.C12_false",
    "Verif.MetaVote.C12_apps_partial"
   ],
   "note": "The property is false of the code (C12_false: votes in max+1 apps). The bound max+1 is proved for all reachable states, also over the contract storage (C12_storage_partial)."
  },
  {
   "property": "C13",
   "status": "partial",
   "theorems": [
    "Verif.Storage.C13_storage_partial",
    "Verif.MetaVote.C13_false",
    "Verif.MetaVote.C13_locked_in_partial"
   ],
   "note": "The property is false of the code (C13_false: rebalance lowers a locked-in vote). Proved: every accepted call other than a non-zero rebalance of that very vote and an operator mirroring keeps it; over the contract storage if no account withdraws its last funds while it has votes and the voter-app ids in use are distinct (C13_storage_partial)."
  },
  {
   "property": "C14",
   "status": "partial",
   "theorems": [
    "Verif.Storage.C14_storage_false",
    "Verif.Storage.C14_storage_partial",
    "Verif.MetaVote.C14_vote_effect_partial",
    "Verif.MetaVote.C14_vote_accepted_partial"
   ],
   "note": "False over the contract storage (C14_storage_false: the vote of one voter changes the votes of another one with an overlapping name). Effect, frame and exact acceptance condition for the model in which the vote maps are values; effect and frame also over the contract storage (C14_storage_partial), if no account withdraws its last funds while it has votes and the voter-app ids in use are distinct. For one voter, whatever the others do: C102_own, C102_others."
  },
  {
   "property": "C15",
   "status": "partial",
   "theorems": [
    "Verif.Storage.C15_storage_false",
    "Verif.Storage.C15_storage_partial",
    "Verif.MetaVote.C15_unvote_effect_partial",
    "Verif.MetaVote.C15_vote_unvote_partial"
   ],
   "note": "False over the contract storage (C15_storage_false). Effect, frame and the round trip vote/unvote for the model in which the vote maps are values; effect and frame also over the contract storage (C15_storage_partial), if no account withdraws its last funds while it has votes and the voter-app ids in use are distinct. For one voter, whatever the others do: C102_own, C102_others."
  },
  {
   "property": "C16",
   "status": "partial",
   "theorems": [
    "Verif.Storage.C16_storage_false",
    "Verif.Storage.C16_storage_partial",
    "Verif.MetaVote.C16_rebalance_effect_partial"
   ],
   "note": "False over the contract storage (C16_storage_false). Effect and frame for the model in which the vote maps are values, and over the contract storage (C16_storage_partial), if no account withdraws its last funds while it has votes and the voter-app ids in use are distinct. For one voter, whatever the others do: C102_own, C102_others."
  },
  {
   "property": "C17",
   "status": "partial",
   "theorems": [
    "Verif.Storage.C17_storage_partial",
    "Verif.Storage.C17_storage_false",
    "Verif.Storage.C17_panics",
    "Verif.MetaVote.C17_false",
    "Verif.MetaVote.C17_unvote_possible_partial"
   ],
   "note": "False of the code for votes of power zero (C17_false), and over storage even for others (C17_storage_false; C74_storage_held: such a vote cannot be brought below the missing amount by anything the voter does). Proved for every non-zero vote in the model in which the vote maps are values, and over the contract storage if no account withdraws its last funds while it has votes and the voter-app ids in use are distinct (C17_storage_partial)."
  },
  {
   "property": "C18",
   "status": "proved",
   "theorems": [
    "Verif.MetaVote.C18_authorized",
    "Verif.MetaVote.C18_owner"
   ],
   "note": "Necessary conditions for every privileged call; exact acceptance for the owner's configuration calls."
  },
  {
   "property": "C19",
   "status": "proved",
   "theorems": [
    "Verif.MetaVote.C19_step",
    "Verif.MetaVote.C19_history",
    "Verif.MetaVote.C19_fixed",
    "Verif.Storage.C19_storage"
   ],
   "note": "Exact: one step, histories, and the parameters without setter."
  },
  {
   "property": "C20",
   "status": "partial",
   "theorems": [
    "Verif.MetaVote.C20_isolation",
    "Verif.Storage.C20_storage_false",
    "Verif.Storage.C20_storage_partial",
    "Verif.Storage.C20_storage_votes_partial"
   ],
   "note": "Every call and state in the model in which the vote maps are values (C20_isolation). Over the contract storage it is false for votes (C20_storage_false: two voters whose vote-map ids coincide); there it is proved for balances, positions, voting power and claims (C20_storage_partial), and for votes if no account withdraws its last funds while it has votes and the voter-app ids in use are distinct (C20_storage_votes_partial)."
  },
  {
   "property": "C21",
   "status": "proved",
   "theorems": [
    "Verif.MetaVote.C21_consistent",
    "Verif.MetaVote.C21_confirm",
    "Verif.MetaVote.C21_remove",
    "Verif.Storage.C21_storage"
   ],
   "note": "Every reachable state; exact effect and acceptance of confirmations and revocations."
  },
  {
   "property": "C22",
   "status": "proved",
   "theorems": [
    "Verif.MetaVote.C22_history",
    "Verif.MetaVote.C22_confirmed",
    "Verif.MetaVote.C22_vote",
    "Verif.MetaVote.C22_unvote",
    "Verif.MetaVote.C22_claim",
    "Verif.Storage.C22_storage_confirmed",
    "Verif.Storage.C22_storage_vote",
    "Verif.Storage.C22_storage_unvote"
   ],
   "note": "Every reachable state; exact equivalence with the same call of the pseudo account, and the delegate as a function of the history."
  },
  {
   "property": "C23",
   "status": "proved",
   "theorems": [
    "Verif.Storage.C23_storage",
    "Verif.MetaVote.C23_restore",
    "Verif.MetaVote.C23_resolve"
   ],
   "note": "For every transfer in flight in every reachable world; the restoring callback needs the amounts owed to fit a u128 (hypothesis)."
  },
  {
   "property": "C24",
   "status": "proved",
   "theorems": [
    "Verif.MetaVote.C24_listed",
    "Verif.MetaVote.C24_withdraw",
    "Verif.MetaVote.C24_balance"
   ],
   "note": "Exact effect and frame."
  },
  {
   "property": "C25",
   "status": "proved",
   "theorems": [
    "Verif.MetaVote.C25_withdraw_all",
    "Verif.MetaVote.C25_accepted",
    "Verif.MetaVote.C25_reachable"
   ],
   "note": "Exact: accepted iff one yocto is attached and get_balance answers a positive amount (C25_accepted); the voter record disappears exactly as stated by Withdrawn.gone."
  },
  {
   "property": "C26",
   "status": "proved",
   "theorems": [
    "Verif.MetaVote.C26_clear",
    "Verif.MetaVote.C26_listed"
   ],
   "note": "Every index list, including duplicated and out of order indexes."
  },
  {
   "property": "C27",
   "status": "partial",
   "theorems": [
    "Verif.Storage.C27_storage_partial",
    "Verif.Storage.C27_storage_false",
    "Verif.MetaVote.C27_listings",
    "Verif.MetaVote.C27_claims",
    "Verif.MetaVote.C27_voters",
    "Verif.MetaVote.C27_delegates_partial",
    "Verif.MetaVote.C27_false",
    "Verif.MetaVote.C27_info"
   ],
   "note": "Proved for get_voters, get_claims, get_stnear_claims and get_airdrop_accounts in every state of the model in which the vote maps are values. C27_info: the answer for one account agrees with the other views, registered or not. False of get_delegates (C27_false: it panics at the end of the list and when from+limit overflows u32); its exact behaviour is C27_delegates_partial. False of get_voters over the contract storage when two vote-map ids coincide (C27_storage_false); there proved under the conditions of C73_refines_partial (C27_storage_partial)."
  },
  {
   "property": "C28",
   "status": "partial",
   "theorems": [
    "Verif.MetaVote.C28_data_partial",
    "Verif.MetaVote.C28_false",
    "Verif.Storage.C28_storage_partial"
   ],
   "note": "The property is false of the code (C28_false). Proved: the data is registered under the calling contract, once; also over the contract storage."
  },
  {
   "property": "C29",
   "status": "proved",
   "theorems": [
    "Verif.MetaVote.C29_migration"
   ],
   "note": "Every list of positions and state; exact, period by period, with the frame."
  },
  {
   "property": "C30",
   "status": "partial",
   "theorems": [
    "Verif.MetaVote.C30_below_partial",
    "Verif.MetaVote.C30_step_partial",
    "Verif.MetaVote.C30_limits_partial",
    "Verif.MetaVote.C30_false",
    "Verif.Storage.C30_storage_below_partial",
    "Verif.Storage.C30_storage_limits_partial"
   ],
   "note": "The property is false of the code (C30_false: extending a locked position ignores the upper limit). Proved: periods are always below 3600 days; what each call may install; and both limits for all histories without extensions and changes of the limits, also over the contract storage."
  },
  {
   "property": "C31",
   "status": "partial",
   "theorems": [
    "Verif.MetaVote.C31_one_per_period_partial",
    "Verif.MetaVote.C31_false",
    "Verif.Storage.C31_storage_partial"
   ],
   "note": "The property is false of the code (C31_false: extending onto the period of another locked position). Proved for all histories in which no extension lands on the period of another locked position, also over the contract storage."
  },
  {
   "property": "C32",
   "status": "partial",
   "theorems": [
    "Verif.MetaVote.C32_minimum_partial",
    "Verif.MetaVote.C32_false",
    "Verif.Storage.C32_storage_partial"
   ],
   "note": "The property is false of the code (C32_false: re-locking the small remainder of a partial re-lock). Proved for all histories in which relock_position and migrations are only used for at least the minimum, also over the contract storage."
  },
  {
   "property": "C33",
   "status": "proved",
   "theorems": [
    "Verif.MetaVote.C33_relock",
    "Verif.MetaVote.C33_relock_part",
    "Verif.MetaVote.C33_from_balance"
   ],
   "note": "Exact effect and frame of relock_position, relock_partial_position and relock_from_balance."
  },
  {
   "property": "C34",
   "status": "partial",
   "theorems": [
    "Verif.MetaVote.C34_false",
    "Verif.MetaVote.C34_can_unlock_partial",
    "Verif.Storage.C34_storage_partial"
   ],
   "note": "The property is false of the code (C34_false). Proved for all histories in which that voter unlocks only locked positions; over the contract storage (C34_storage_partial) also under the conditions of C73_refines_partial."
  },
  {
   "property": "C35",
   "status": "proved",
   "theorems": [
    "Verif.MetaVote.C35_unlock",
    "Verif.MetaVote.C35_partial_unlock",
    "Verif.Storage.C35_storage_unlock",
    "Verif.Storage.C35_storage_partial_unlock"
   ],
   "note": "Full and partial unlock, with the frame, for every reachable state, also over the contract storage. For the full unlock of a position that is already unlocking the same effect is proved (the power is burnt again, see C04)."
  },
  {
   "property": "C36",
   "status": "proved",
   "theorems": [
    "Verif.MetaVote.C36_extend"
   ],
   "note": "Exact effect and frame."
  },
  {
   "property": "C37",
   "status": "partial",
   "theorems": [
    "Verif.MetaVote.C37_mirrored",
    "Verif.MetaVote.C37_accepted_partial",
    "Verif.MetaVote.C37_false",
    "Verif.MetaVote.C37_taken",
    "Verif.Storage.C37_storage_partial"
   ],
   "note": "Exact effect for every reachable state (C37_mirrored), including which votes are taken back and in which order (C37_taken); acceptance and termination for accounts without votes of power zero (C37_accepted_partial), the exact condition is in C76_accepted; with such a vote the removal loop can panic (C37_false). The effect is also proved over the contract storage, if no account withdraws its last funds while it has votes and the voter-app ids in use are distinct (C37_storage_partial)."
  },
  {
   "property": "C38",
   "status": "proved",
   "theorems": [
    "Verif.MetaVote.C38_deposit",
    "Verif.MetaVote.C38_accepted",
    "Verif.Storage.C38_storage_accepted"
   ],
   "note": "Exact effect, frame and acceptance, also over the contract storage."
  },
  {
   "property": "C39",
   "status": "proved",
   "theorems": [
    "Verif.MetaVote.C39_claim_and_lock"
   ],
   "note": "Exact effect and frame."
  },
  {
   "property": "C40",
   "status": "proved",
   "theorems": [
    "Verif.MetaVote.C40_claim",
    "Verif.MetaVote.C40_delegated",
    "Verif.MetaVote.C40_restore",
    "Verif.Storage.C40_storage"
   ],
   "note": "Exact effect, acceptance of claim_stnear, and the callback."
  },
  {
   "property": "C41",
   "status": "proved",
   "theorems": [
    "Verif.MetaVote.C41_flags",
    "Verif.MetaVote.C41_partition",
    "Verif.MetaVote.C41_sum"
   ],
   "note": "For every position, time and state."
  },
  {
   "property": "C42",
   "status": "proved",
   "theorems": [
    "Verif.MetaVote.C42_step",
    "Verif.MetaVote.C42_update",
    "Verif.MetaVote.C42_registered"
   ],
   "note": "Every call and state."
  },
  {
   "property": "C43",
   "status": "proved",
   "theorems": [
    "Verif.Storage.C43_prefix",
    "Verif.Storage.C43_prefix_mpip",
    "Verif.Storage.C43_keys",
    "Verif.Storage.C43_keys_mpip",
    "Verif.Storage.C43_any_hash"
   ],
   "note": "Byte level. The hash is a parameter with 32-byte values; C43_prefix and C43_keys assume it does not confuse the two ids at hand, C43_any_hash assumes nothing."
  },
  {
   "property": "C44",
   "status": "partial",
   "theorems": [
    "Verif.Storage.C44_false",
    "Verif.Storage.C44_names_partial",
    "Verif.Storage.C44_voter_partial",
    "Verif.Storage.C44_overlap_partial"
   ],
   "note": "False of the code (C44_false): the ids of (eve, x-app) and (eve-x, app) are the same. Proved: distinct ids for names without '-' on one side, for the same voter, and the exact form of an overlap."
  },
  {
   "property": "C45",
   "status": "proved",
   "theorems": [
    "Verif.MetaVote.C45_migrate",
    "Verif.MetaVote.C45_roundtrip"
   ],
   "note": "Exact; decoding of the stored bytes is an input of the model (see DESIGN.md)."
  },
  {
   "property": "C46",
   "status": "partial",
   "theorems": [
    "Verif.Mpip.C46_exact",
    "Verif.Mpip.C46_at_least",
    "Verif.Mpip.C46_partial",
    "Verif.Mpip.C46_false"
   ],
   "note": "False of the code (C46_false: two votes of one voter in flight). Proved: tallies are never below the recorded sums (C46_at_least), the exact value from the log (C46_exact), and equality when nobody votes on a proposal while an earlier vote of theirs on it is in flight (C46_partial)."
  },
  {
   "property": "C47",
   "status": "partial",
   "theorems": [
    "Verif.Mpip.C47_partial",
    "Verif.Mpip.C47_one_listed",
    "Verif.Mpip.C47_false"
   ],
   "note": "False of the code (C47_false). Proved for histories without overlapping votes of one voter on one proposal; one listed vote per voter always."
  },
  {
   "property": "C48",
   "status": "proved",
   "theorems": [
    "Verif.Mpip.C48_agree",
    "Verif.Mpip.C48_last",
    "Verif.Mpip.C48_voter",
    "Verif.Mpip.C48_voters"
   ],
   "note": "For all reachable worlds."
  },
  {
   "property": "C49",
   "status": "partial",
   "theorems": [
    "Verif.Mpip.C49_partial",
    "Verif.Mpip.C49_false"
   ],
   "note": "False of the code (C49_false: the callback does not check the window). Proved: the call that led to the count was accepted in the window."
  },
  {
   "property": "C50",
   "status": "proved",
   "theorems": [
    "Verif.Mpip.C50_remove",
    "Verif.Mpip.C50_accepted",
    "Verif.Mpip.C50_undo"
   ],
   "note": "Exact effect, acceptance and vote-then-remove."
  },
  {
   "property": "C51",
   "status": "proved",
   "theorems": [
    "Verif.Mpip.C51_dense",
    "Verif.Mpip.C51_permanent",
    "Verif.Mpip.C51_creators",
    "Verif.Mpip.C51_pages"
   ],
   "note": "Below 2^32 proposals, as stated in the property."
  },
  {
   "property": "C52",
   "status": "partial",
   "theorems": [
    "Verif.Mpip.C52_step",
    "Verif.Mpip.C52_partial",
    "Verif.Mpip.C52_false"
   ],
   "note": "Each step keeps the text after the start (C52_step). Over histories false of the code (C52_false: a second start in flight moves the start), proved when no proposal is started twice."
  },
  {
   "property": "C53",
   "status": "proved",
   "theorems": [
    "Verif.Mpip.C53_terminal",
    "Verif.Mpip.C53_exclusive"
   ],
   "note": "Below 2^32 proposals."
  },
  {
   "property": "C54",
   "status": "proved",
   "theorems": [
    "Verif.Mpip.C54_floor",
    "Verif.Mpip.C54_quorum"
   ],
   "note": "Every step that changes a quorum."
  },
  {
   "property": "C55",
   "status": "partial",
   "theorems": [
    "Verif.Mpip.C55_partial",
    "Verif.Mpip.C55_false"
   ],
   "note": "Proved while for and abstain votes together fit u128; beyond that the view panics (C55_false)."
  },
  {
   "property": "C56",
   "status": "partial",
   "theorems": [
    "Verif.Mpip.C56_partial",
    "Verif.Mpip.C56_false"
   ],
   "note": "False of the code (C56_false: majority not checked). Proved: who, when and quorum."
  },
  {
   "property": "C57",
   "status": "partial",
   "theorems": [
    "Verif.Mpip.C57_partial",
    "Verif.Mpip.C57_never",
    "Verif.Mpip.C57_false"
   ],
   "note": "False of the code (C57_false, C57_never: nothing happens after the last millisecond). Proved in exactly the last millisecond."
  },
  {
   "property": "C58",
   "status": "proved",
   "theorems": [
    "Verif.Mpip.C58_auth",
    "Verif.Mpip.C58_pay"
   ],
   "note": "Every call."
  },
  {
   "property": "C59",
   "status": "proved",
   "theorems": [
    "Verif.Mpip.C59_created",
    "Verif.Mpip.C59_rejected"
   ],
   "note": "Every step that adds a proposal. The power asked for is that of the predecessor of the call, the creator is its signer."
  },
  {
   "property": "C60",
   "status": "partial",
   "theorems": [
    "Verif.Mpip.C60_partial",
    "Verif.Mpip.C60_false"
   ],
   "note": "False of the code (C60_false). Proved when no proposal is started twice."
  },
  {
   "property": "C61",
   "status": "proved",
   "theorems": [
    "Verif.Kv.C61_value",
    "Verif.Kv.C61_remove",
    "Verif.Kv.C61_count",
    "Verif.Kv.C61_accepted"
   ],
   "note": "the stored value after any history is the last accepted write"
  },
  {
   "property": "C62",
   "status": "proved",
   "theorems": [
    "Verif.Kv.C62_roles",
    "Verif.Kv.C62_authorized"
   ],
   "note": "roles change only by the owner, writes only by the operator or owner as coded"
  },
  {
   "property": "C63",
   "status": "proved",
   "theorems": [
    "Verif.Kv.C63_pages"
   ],
   "note": "paging of keys and values"
  },
  {
   "property": "C64",
   "status": "proved",
   "theorems": [
    "Verif.Token.C64_supply",
    "Verif.Token.C64_finite"
   ],
   "note": "for every duplicate-free list of accounts containing all accounts with a balance; methods of near-contract-standards modelled from its published source"
  },
  {
   "property": "C65",
   "status": "proved",
   "theorems": [
    "Verif.Token.C65_mint",
    "Verif.Token.C65_resolve",
    "Verif.Token.C65_mint_accepted",
    "Verif.Token.C65_minters",
    "Verif.Token.C65_owner",
    "Verif.Token.C65_burn"
   ],
   "note": "mint, minters, owner, burn; near-contract-standards modelled from its published source"
  },
  {
   "property": "C66",
   "status": "proved",
   "theorems": [
    "Verif.Solvency.C66_mpdao",
    "Verif.Solvency.C66_covered",
    "Verif.Solvency.C66_stnear",
    "Verif.Solvency.C66_payment",
    "Verif.Solvency.C66_refund",
    "Verif.Solvency.C66_answers",
    "Verif.Solvency.C66_nothing_stranded"
   ],
   "note": "Joint system of meta-vote, the mpDAO and the stNEAR token (two instances of the token model) and all receipts in flight. Assumed, as in the statement: mpDAO is sent to the contract before it is credited by a migration; the stNEAR token is not replaced; tokens call meta-vote only by transfer-calls; nobody uses the key of the contract to call the tokens. Meta-vote takes the steps of the loose executions, so the storage executions (with collisions of vote maps) are covered too."
  },
  {
   "property": "C67",
   "status": "proved",
   "theorems": [
    "Verif.Joint.C67_addressee",
    "Verif.Joint.C67_locked",
    "Verif.Joint.C67_bounded",
    "Verif.Joint.C67_quorum",
    "Verif.Mpip.C67_weight"
   ],
   "note": "For the joint system of both contracts (C67_locked, C67_quorum), with the answer computed in any state between call and callback. The power equals available plus used power and is bounded by the total when only locked positions were ever unlocked in meta-vote (C67_bounded)."
  },
  {
   "property": "C68",
   "status": "proved",
   "theorems": [
    "Verif.MetaVote.C68_account_mpdao",
    "Verif.MetaVote.C68_account_stnear",
    "Verif.Storage.C68_storage_mpdao",
    "Verif.Storage.C68_storage_stnear"
   ],
   "note": "For all reachable worlds."
  },
  {
   "property": "C69",
   "status": "partial",
   "theorems": [
    "Verif.MetaVote.C69_seen_partial",
    "Verif.MetaVote.C69_false",
    "Verif.Storage.C69_storage_partial"
   ],
   "note": "The property is false of the code (C69_false: anybody may replace the pending request). Proved when no other request for the address is accepted in between, also over the contract storage."
  },
  {
   "property": "C70",
   "status": "partial",
   "theorems": [
    "Verif.Storage.C70_storage_by_app",
    "Verif.Storage.C70_storage_false",
    "Verif.Storage.C70_storage_by_voter_partial",
    "Verif.MetaVote.C70_by_app",
    "Verif.MetaVote.C70_by_voter"
   ],
   "note": "Every state of the model in which the vote maps are values. Over the contract storage the lists per app are right in every execution (C70_storage_by_app); the lists per voter can become unreadable (C70_storage_false) and are right if no account withdraws its last funds while it has votes and the voter-app ids in use are distinct (C70_storage_by_voter_partial)."
  },
  {
   "property": "C71",
   "status": "proved",
   "theorems": [
    "Verif.Token.C71_call",
    "Verif.Token.C71_step",
    "Verif.Token.C71_outstanding"
   ],
   "note": "near-contract-standards modelled from its published source"
  },
  {
   "property": "C72",
   "status": "proved",
   "theorems": [
    "Verif.Token.C72_settle"
   ],
   "note": "near-contract-standards modelled from its published source"
  },
  {
   "property": "C73",
   "status": "partial",
   "theorems": [
    "Verif.Storage.C73_other_partial",
    "Verif.Storage.C73_vote_partial",
    "Verif.Storage.C73_refines_partial",
    "Verif.Storage.C73_powered",
    "Verif.Storage.C73_false"
   ],
   "note": "False of the code (C73_false): a voter with a zero-power vote who withdraws and comes back reuses stale storage and takes away votes of others. Proved (C73_refines_partial): in all executions in which no account withdraws its last funds while it has votes, and the voter-app ids in use are distinct, the contract over storage does exactly what the model with plain maps does. The first condition holds whenever every vote has power (C73_powered)."
  },
  {
   "property": "C74",
   "status": "partial",
   "theorems": [
    "Verif.MetaVote.C74_exit_partial",
    "Verif.MetaVote.C74_false",
    "Verif.Storage.C74_storage_held",
    "Verif.Storage.C74_storage_false",
    "Verif.Storage.C74_storage_partial"
   ],
   "note": "False of the code (C74_false: after unlocking an unlocking position some funds are locked for ever, whatever anybody does). Proved for every voter who never did that, with any number of votes and positions; over storage (C74_storage_partial) under the conditions of C73_refines_partial. Over storage it is false even for a voter who made one deposit and one vote (C74_storage_false): if somebody else took votes out of the total of an object (C73_false), a voter of that object keeps votes of at least the difference and cannot unlock the power they use, whatever they do, until somebody else votes for the object (C74_storage_held)."
  },
  {
   "property": "C75",
   "status": "proved",
   "theorems": [
    "Verif.MetaVote.C75_close",
    "Verif.MetaVote.C75_units",
    "Verif.MetaVote.C75_not_exact",
    "Verif.Storage.C75_storage"
   ],
   "note": "C75_close and C75_units, also over storage (C75_storage). Exact equality does not hold (C75_not_exact)."
  },
  {
   "property": "C76",
   "status": "partial",
   "theorems": [
    "Verif.MetaVote.C76_frees",
    "Verif.MetaVote.C76_accepted",
    "Verif.Storage.C76_storage_partial",
    "Verif.Storage.C76_storage_false"
   ],
   "note": "False over the contract storage (C76_storage_false: a voter who left with a vote of power zero and came back cannot vote). C76_accepted: on every reachable state of the model with vote maps as values, every call is accepted iff MayCall holds. C76_frees: what the index lists of clear_locking_position and withdraw free, for distinct indexes. C76_storage_partial: the same over storage, only in the executions in which C73 holds."
  },
  {
   "property": "C77",
   "status": "proved",
   "theorems": [
    "Verif.Mpip.C77_accepted"
   ],
   "note": "C77_accepted: for every method and callback of mpip, in every reachable state, accepted iff MayCall (Spec/MpipAccept)."
  },
  {
   "property": "C78",
   "status": "proved",
   "theorems": [
    "Verif.Kv.C78_kv",
    "Verif.Token.C78_token"
   ],
   "note": "C78_kv: every state of the store; C78_token: every reachable state of the token. MayCall of Spec/SmallAccept is stated with views only."
  },
  {
   "property": "C79",
   "status": "proved",
   "theorems": [
    "Verif.MpipStorage.C79_exec",
    "Verif.MpipStorage.C79_reach",
    "Verif.MpipStorage.C79_views",
    "Verif.MpipStorage.C79_votes"
   ],
   "note": "C79_exec: each call over storage entries does exactly what the call on values does, including panics; C79_reach: the reachable worlds over storage are exactly the stored reachable worlds, so every theorem about mpip holds over storage; C79_views: all views; C79_votes: the resulting statement in terms of views. The hash is assumed without collisions."
  },
  {
   "property": "C80",
   "status": "proved",
   "theorems": [
    "Verif.Mpip.C80_init",
    "Verif.Mpip.C80_settings",
    "Verif.Mpip.C80_replay",
    "Verif.Mpip.C80_views"
   ],
   "note": "C80_init: settings after the initialization; C80_settings: the exact effect of each accepted call on the settings, and its promises; C80_replay: settings and proposals computed from the whole history; C80_views: the views of the settings. Tallies and single votes are C46 to C48."
  },
  {
   "property": "C81",
   "status": "proved",
   "theorems": [
    "Verif.Token.C81_call",
    "Verif.Token.C81_history"
   ],
   "note": "C81_call: one accepted call in a reachable state, with its promises; C81_history: from the initialization over any list of accepted calls, stated through the views."
  },
  {
   "property": "C82",
   "status": "partial",
   "theorems": [
    "Verif.MetaVote.C82_call",
    "Verif.MetaVote.C82_history",
    "Verif.MetaVote.C82_views",
    "Verif.Storage.C82_storage_partial",
    "Verif.Storage.C82_storage_false"
   ],
   "note": "C82_call: complete effect of every accepted call, with its transfers; C82_history: the books after every history; C82_views: views that list no accounts, apps or objects depend on the books only. These are for the model in which the vote maps are values; over the contract storage (C82_storage_partial) only in the executions in which C73 holds. C82_storage_false: false over storage in general, since votes left behind by a removed account are used again."
  },
  {
   "property": "C83",
   "status": "partial",
   "theorems": [
    "Verif.MetaVote.C83_call",
    "Verif.MetaVote.C83_step",
    "Verif.MetaVote.C83_steps",
    "Verif.Storage.C83_storage_false"
   ],
   "note": "C83_call, C83_step, C83_steps: same books, same future, for the model in which the vote maps are values. C83_storage_false: false of the contract over storage, two contracts with the same records and the same lists of votes of which only one accepts a call, because votes left behind by a removed account come back although they are in no list."
  },
  {
   "property": "C84",
   "status": "partial",
   "theorems": [
    "Verif.MetaVote.C84_lines",
    "Verif.MetaVote.C84_votes",
    "Verif.MetaVote.C84_text_partial",
    "Verif.MetaVote.C84_same_partial",
    "Verif.MetaVote.C84_paid",
    "Verif.MetaVote.C84_text_lines_partial",
    "Verif.MetaVote.C84_text_paid_partial",
    "Verif.MetaVote.C84_deposits",
    "Verif.MetaVote.C84_mirror",
    "Verif.MetaVote.C84_text_false"
   ],
   "note": "C84_votes: the votes of everybody are those told by the lines; C84_paid: the payments told are the payments executed; C84_deposits; C84_mirror: the exact lines of a mirroring; C84_lines: every line is true of the state before and after its call, and none is missing. C84_text_lines_partial, C84_text_paid_partial: every line, and every payment made or failed, can be read back from the text; C84_text_partial, C84_same_partial: the same from the text alone, read by the reader of Spec/Logs, if no voter or app in it has a space in its name; C84_text_false: without that the text is ambiguous. For the model in which the vote maps are values; over storage a removed account may get back votes that no line tells (C82_storage_false)."
  },
  {
   "property": "C85",
   "status": "proved",
   "theorems": [
    "Verif.Mpip.C85_call",
    "Verif.Mpip.C85_history",
    "Verif.Mpip.C85_same",
    "Verif.Mpip.C85_steps",
    "Verif.Mpip.C85_views"
   ],
   "note": "C85_call: complete effect of every accepted call and reply on settings, proposals, tallies and votes, with its promises; C85_history: the books after every history; C85_same, C85_steps: contracts with the same books accept the same and stay the same; C85_views: the views show the books, lists up to order (lists of own proposals below 2^32 proposals). For the model with plain tables; over storage by C79."
  },
  {
   "property": "C86",
   "status": "partial",
   "theorems": [
    "Verif.Mpip.C86_mpip_taken",
    "Verif.Mpip.C86_mpip_sends",
    "Verif.Mpip.C86_mpip_ledger",
    "Verif.Mpip.C86_mpip_orders",
    "Verif.Mpip.C86_false",
    "Verif.MetaVote.C86_price_partial",
    "Verif.MetaVote.C86_sends",
    "Verif.MetaVote.C86_ledger",
    "Verif.MetaVote.C86_price_false"
   ],
   "note": "meta-vote: C86_price_partial: exact price of every call but one; C86_sends, C86_ledger: one yocto to the token for each payment and nothing else; C86_price_false: delegated_claim_stnear takes any deposit and keeps it. mpip: C86_mpip_taken, C86_mpip_sends, C86_mpip_ledger, C86_mpip_orders: what comes in and what goes out in every execution; C86_false: the deposit of a proposal that is not created never comes back unless the admin pays it. Refunds by the protocol for failed receipts are not counted."
  },
  {
   "property": "C87",
   "status": "proved",
   "theorems": [
    "Verif.Disk.C87_answers",
    "Verif.Disk.C87_rest",
    "Verif.Disk.C87_bytes",
    "Verif.Disk.C87_meta",
    "Verif.Disk.C87_mpip",
    "Verif.Disk.C87_kv",
    "Verif.Disk.C87_token"
   ],
   "note": "C87_answers, C87_rest, C87_bytes: for any family of collections whose elements have different keys, operations on the bytes of storage answer as separate tables, leave the rest of storage alone, and leave bytes that depend on the contents only. C87_meta, C87_mpip, C87_kv, C87_token: the collections of the four contracts are such families, and none of their keys is the one of the contract state. The code of the collections is that of near-sdk, modelled from its published source. A collection that is created anew over old entries (with the length of an empty one) is not among the operations; see C73 for that."
  },
  {
   "property": "C88",
   "status": "proved",
   "theorems": [
    "Verif.Borsh.C88_position",
    "Verif.Borsh.C88_voter",
    "Verif.Borsh.C88_state",
    "Verif.Borsh.C88_old",
    "Verif.Borsh.C88_migrate",
    "Verif.Borsh.C88_once",
    "Verif.Borsh.C88_vote",
    "Verif.Borsh.C88_proposal",
    "Verif.Borsh.C88_tally",
    "Verif.Borsh.C88_mpip",
    "Verif.Borsh.C88_kv",
    "Verif.Borsh.C88_token",
    "Verif.Borsh.C88_values",
    "Verif.Borsh.C88_numbers"
   ],
   "note": "C88_position, C88_voter, C88_state, C88_old, C88_vote, C88_proposal, C88_tally, C88_mpip, C88_kv, C88_token, C88_values: reading gives a value exactly for the bytes that writing it gives. C88_migrate, C88_once: the migration on bytes. C88_numbers: every number of a reachable meta-vote state fits its type (for mpip this is part of C93). The format is modelled from the specification of Borsh. The metadata of the token is in C91."
  },
  {
   "property": "C89",
   "status": "proved",
   "theorems": [
    "Verif.Kv.Bytes.C89_call",
    "Verif.Kv.Bytes.C89_views",
    "Verif.Kv.Bytes.C89_history"
   ],
   "note": "C89_call: each call on the bytes of a state answers as the model, panic messages included, and leaves the bytes of the next state and the rest of the storage. C89_views: all views. C89_history: from installation, against a separate specification of who may call, the answers and the values. near-sdk's collections and Borsh are modelled from their published behaviour; the JSON coding is in C96 to C101."
  },
  {
   "property": "C90",
   "status": "partial",
   "theorems": [
    "Verif.Token.C90_lines",
    "Verif.Token.C90_exists",
    "Verif.Token.C90_events_partial",
    "Verif.Token.C90_call",
    "Verif.Token.C90_false"
   ],
   "note": "C90_call: the lines of an accepted call tell its effect. C90_lines: whole history. C90_exists: the executions that write lines are all executions. C90_false: the events of the standard alone do not suffice, because a forced storage_unregister burns the balance without FtBurn (lib.rs:244-245 only writes a text line); C90_events_partial: they suffice if no account with a balance was closed. The lines of FungibleToken are taken from the published source of near-contract-standards."
  },
  {
   "property": "C91",
   "status": "proved",
   "theorems": [
    "Verif.Token.Bytes.C91_call",
    "Verif.Token.Bytes.C91_views",
    "Verif.Token.Bytes.C91_new",
    "Verif.Token.Bytes.C91_new_refused",
    "Verif.Token.Bytes.C91_paid",
    "Verif.Token.Bytes.C91_history"
   ],
   "note": "C91_call: each call on the bytes of a state does what the model does, panic messages, promises and lines included. C91_views, C91_new, C91_new_refused. C91_paid: what is held for an account pays for its entry (125 bytes of at most 1+4+64+16+40). C91_history: from installation, with the lines as the only specification of balances and supply. FungibleToken, LookupMap, LazyOption, Borsh and the 40 bytes per entry are modelled from their published behaviour; the JSON coding is in C96 to C101; gas is not modelled."
  },
  {
   "property": "C92",
   "status": "proved",
   "theorems": [
    "Verif.MetaVote.Bytes.C92_call",
    "Verif.MetaVote.Bytes.C92_install",
    "Verif.MetaVote.Bytes.C92_upgrade",
    "Verif.MetaVote.Bytes.C92_once",
    "Verif.MetaVote.Bytes.C92_reach",
    "Verif.MetaVote.Bytes.C92_views_state",
    "Verif.MetaVote.Bytes.C92_views_voter",
    "Verif.MetaVote.Bytes.C92_views_votes",
    "Verif.MetaVote.Bytes.C92_views_lists",
    "Verif.MetaVote.Bytes.C92_views_delegates",
    "Verif.MetaVote.Bytes.C92_maps"
   ],
   "note": "C92_call, C92_install, C92_once, C92_reach: refinement, panic messages, transfers and untouched keys included, from bytes to the contract over its collections, for every history. C92_views_*: every view. C92_upgrade: migrate on the storage of the version before, in which every other call panics. C92_maps: on to the model with plain vote maps, under the two conditions of the statement; without them it is false (C73). Hashes of ids are assumed not to collide; gas is not modelled; log lines are those of C84, from values."
  },
  {
   "property": "C93",
   "status": "proved",
   "theorems": [
    "Verif.Mpip.Bytes.C93_call",
    "Verif.Mpip.Bytes.C93_install",
    "Verif.Mpip.Bytes.C93_once",
    "Verif.Mpip.Bytes.C93_reach",
    "Verif.Mpip.Bytes.C93_views_state",
    "Verif.Mpip.Bytes.C93_views_proposal",
    "Verif.Mpip.Bytes.C93_views_list",
    "Verif.Mpip.Bytes.C93_views_account",
    "Verif.Mpip.Bytes.C93_votes"
   ],
   "note": "C93_call, C93_install, C93_once, C93_reach: refinement, panic messages, promises and untouched keys included, from bytes to the model with plain maps, for every history. C93_views_*: every view. C93_votes: C46, C47 and C48 read off the bytes. Hashes of names are assumed not to collide; gas is not modelled."
  },
  {
   "property": "C94",
   "status": "proved",
   "theorems": [
    "Verif.Joint.C94_positions",
    "Verif.Joint.C94_total",
    "Verif.Joint.C94_callback",
    "Verif.Joint.C94_joint",
    "Verif.Joint.C94_locked",
    "Verif.Joint.C94_quorum",
    "Verif.Joint.C94_counts"
   ],
   "note": "C94_positions, C94_total, C94_callback: each message is read as written; C94_joint: joint histories in JSON are joint histories of C67; C94_locked, C94_quorum, C94_counts: the conclusions. JSON writer and reader modelled in Serde (see DESIGN)."
  },
  {
   "property": "C95",
   "status": "proved",
   "theorems": [
    "Verif.MetaVote.C95_payment",
    "Verif.MetaVote.C95_callback",
    "Verif.MetaVote.C95_notify",
    "Verif.MetaVote.C95_for_other",
    "Verif.MetaVote.C95_only_owner",
    "Verif.MetaVote.C95_days",
    "Verif.MetaVote.C95_claims"
   ],
   "note": "C95_payment, C95_callback, C95_notify: messages between meta-vote and a token; C95_days, C95_for_other, C95_only_owner, C95_claims: the three forms of the message of a transfer-call. JSON writer and reader modelled in Serde."
  },
  {
   "property": "C96",
   "status": "proved",
   "theorems": [
    "Verif.MetaVote.C96_written",
    "Verif.MetaVote.C96_typed",
    "Verif.MetaVote.C96_order",
    "Verif.Mpip.C96_written",
    "Verif.Mpip.C96_typed",
    "Verif.Mpip.C96_order",
    "Verif.Token.C96_written",
    "Verif.Token.C96_typed",
    "Verif.Token.C96_order",
    "Verif.Kv.C96_written",
    "Verif.Kv.C96_typed",
    "Verif.Kv.C96_order",
    "Verif.MetaVote.C96_reach",
    "Verif.MetaVote.C96_call"
   ],
   "note": "MetaVote, Mpip, Token and Kv: C96_written, C96_typed, C96_order; C96_reach: histories in JSON are histories of the model; C96_call: and conversely for single calls."
  },
  {
   "property": "C97",
   "status": "partial",
   "theorems": [
    "Verif.MetaVote.C97_accounts_partial",
    "Verif.MetaVote.C97_stuck",
    "Verif.MetaVote.C97_named_partial",
    "Verif.MetaVote.C97_payment",
    "Verif.MetaVote.C97_no_account_false"
   ],
   "note": "C97_accounts_partial: the configured accounts; C97_payment: the payments; C97_named_partial: nothing is held or owed for an id that no message named. The rest is false: C97_no_account_false, an owner's deposit and a distribution name an id with a capital letter, both are accepted; C97_stuck: what is held or owed for such an id never goes down, whoever calls what, so it is lost."
  },
  {
   "property": "C98",
   "status": "proved",
   "theorems": [
    "Verif.MetaVote.C98_asked",
    "Verif.MetaVote.C98_typed",
    "Verif.MetaVote.C98_order",
    "Verif.MetaVote.C98_answer",
    "Verif.MetaVote.C98_any",
    "Verif.Mpip.C98_asked",
    "Verif.Mpip.C98_typed",
    "Verif.Mpip.C98_order",
    "Verif.Mpip.C98_answer",
    "Verif.Mpip.C98_any",
    "Verif.Kv.C98_asked",
    "Verif.Kv.C98_typed",
    "Verif.Kv.C98_order",
    "Verif.Kv.C98_answer",
    "Verif.Kv.C98_any",
    "Verif.Token.C98_asked",
    "Verif.Token.C98_typed",
    "Verif.Token.C98_order",
    "Verif.Token.C98_answer",
    "Verif.Token.C98_any"
   ],
   "note": "MetaVote, Mpip, Kv and Token: C98_asked: every question is read as written; C98_typed, C98_order: any input; C98_answer: a client reads the value of the view and is refused when the view refuses; C98_any: every answer to any input is the value of the view. All views but ft_metadata."
  },
  {
   "property": "C99",
   "status": "proved",
   "theorems": [
    "Verif.MetaVote.Bytes.C99_reach",
    "Verif.MetaVote.Bytes.C99_call",
    "Verif.MetaVote.Bytes.C99_client",
    "Verif.MetaVote.Bytes.C99_client_partial",
    "Verif.Mpip.Bytes.C99_reach",
    "Verif.Mpip.Bytes.C99_call",
    "Verif.Mpip.Bytes.C99_client",
    "Verif.Kv.Bytes.C99_call",
    "Verif.Kv.Bytes.C99_client",
    "Verif.Token.Bytes.C99_call",
    "Verif.Token.Bytes.C99_client"
   ],
   "note": "C99_reach: JSON histories on bytes are histories of calls on bytes; C99_call: one JSON call on bytes is refused as in the model or leaves the bytes of the resulting state; C99_client (all four contracts): any JSON history from the JSON installation is an execution of the model and every view answered in JSON on the bytes is the JSON value (Spec/Interface) of that view. For MetaVote the model is the one over the storage of the vote maps, for every history; C99_client_partial (MetaVote) is the stronger consequence, against plain maps, while nobody withdraws the last funds of an account that still has votes (C92 says why it needs that)."
  },
  {
   "property": "C100",
   "status": "proved",
   "theorems": [
    "Verif.MetaVote.C100_call",
    "Verif.MetaVote.C100_only",
    "Verif.MetaVote.C100_written",
    "Verif.MetaVote.C100_asked",
    "Verif.MetaVote.C100_questions",
    "Verif.MetaVote.C100_answer",
    "Verif.MetaVote.C100_payment",
    "Verif.MetaVote.C100_messages",
    "Verif.Mpip.C100_call",
    "Verif.Mpip.C100_only",
    "Verif.Mpip.C100_written",
    "Verif.Mpip.C100_asked",
    "Verif.Mpip.C100_questions",
    "Verif.Mpip.C100_answer",
    "Verif.Mpip.C100_query",
    "Verif.Kv.C100_call",
    "Verif.Kv.C100_only",
    "Verif.Kv.C100_written",
    "Verif.Kv.C100_asked",
    "Verif.Kv.C100_questions",
    "Verif.Kv.C100_answer",
    "Verif.Kv.C100_init",
    "Verif.Token.C100_init",
    "Verif.Token.C100_call",
    "Verif.Token.C100_only",
    "Verif.Token.C100_written",
    "Verif.Token.C100_asked",
    "Verif.Token.C100_questions",
    "Verif.Token.C100_answer"
   ],
   "note": "MetaVote, Mpip, Kv and Token: C100_call, C100_asked: an input with the arguments of a signature is read as that call or question; C100_only, C100_questions: nothing else is accepted; C100_written, C100_payment, C100_query, C100_messages: what the contracts write to each other; C100_answer: the JSON value of every answer; C100_init: installation."
  },
  {
   "property": "C101",
   "status": "proved",
   "theorems": [
    "Verif.JsonText.C101_exact",
    "Verif.JsonText.C101_one",
    "Verif.JsonText.C101_written",
    "Verif.JsonText.C101_messages",
    "Verif.JsonText.C101_args",
    "Verif.JsonText.C101_deposit"
   ],
   "note": "C101_exact: the reader accepts exactly the texts that the grammar derives with at most 127 levels and gives their value; C101_one: a text has one value; C101_written: what is written is a text of the value; C101_args: inputs of methods are objects or arrays; C101_messages: the two kinds of JSON messages, both directions; C101_deposit: messages of accepted transfers."
  },
  {
   "property": "C102",
   "status": "proved",
   "theorems": [
    "Verif.Storage.C102_votes",
    "Verif.Storage.C102_bound",
    "Verif.Storage.C102_power",
    "Verif.Storage.C102_list",
    "Verif.Storage.C102_others",
    "Verif.Storage.C102_own",
    "Verif.MetaVote.Bytes.C102_bytes",
    "Verif.MetaVote.Bytes.C102_json"
   ],
   "note": "C102_votes, C102_bound: the votes shown against the accepted calls; C102_power; C102_list; C102_own and C102_others: effect of the next call. Over the storage of the vote maps (C73), in every execution; the two conditions are on the log alone. C102_bytes: the same read from the bytes of storage; C102_json: as told to a client in JSON, for every JSON history."
  },
  {
   "property": "C103",
   "status": "proved",
   "theorems": [
    "Verif.MetaVote.Bytes.C103_record",
    "Verif.Mpip.Bytes.C103_record",
    "Verif.Kv.Bytes.C103_record",
    "Verif.Token.Bytes.C103_record"
   ],
   "note": "One theorem C103_record per contract, on the JSON executions on the bytes of storage (C99): the record under STATE is read back and its account ids satisfy the syntax of account ids; for mpip also the creators in get_proposal and get_proposals and the voters in get_proposal_votes. These are all account ids that are ever read from storage: the keys of the other maps are only written or compared (voters of meta-vote are plain strings)."
  },
  {
   "property": "C104",
   "status": "proved",
   "theorems": [
    "Verif.Joint.Bytes.C104_vote",
    "Verif.Joint.Bytes.C104_quorum",
    "Verif.Joint.Bytes.C104_created"
   ],
   "note": "C104_vote, C104_quorum and C104_created, on the joint executions of both contracts in JSON on bytes (Joint/Bytes.lean). The meta-vote contract has to be the one that mpip named when the account called (Names), not before or after. The two clocks are not tied together, which only allows more executions. Other contracts that mpip may be pointed to answer anything."
  },
  {
   "property": "C105",
   "status": "proved",
   "theorems": [
    "Verif.Solvency.Bytes.C105_answers",
    "Verif.Solvency.Bytes.C105_reserves",
    "Verif.Solvency.Bytes.C105_exact",
    "Verif.Solvency.Bytes.C105_stnear",
    "Verif.Solvency.Bytes.C105_payment",
    "Verif.Solvency.Bytes.C105_refund",
    "Verif.Solvency.Bytes.C105_nothing_stranded"
   ],
   "note": "C105_answers, C105_reserves, C105_exact, C105_stnear, C105_payment, C105_refund and C105_nothing_stranded, on the joint executions of the three contracts in JSON on bytes (Joint/TokenBytes.lean). Gas is not modelled: a payment may also be lost for another reason (step lost), and is then given back. Both tokens are the token of the repository. Balances of mirrored accounts are not backed by the token and are left out, as in C66."
  },
  {
   "property": "C106",
   "status": "proved",
   "theorems": [
    "Verif.Solvency.C106_step",
    "Verif.Solvency.C106_kept",
    "Verif.Solvency.Bytes.C106_told",
    "Verif.Solvency.Bytes.C106_told_kept"
   ],
   "note": "C106_step is the statement for one step and C106_kept for any number, on the joint executions of C66; C106_told and C106_told_kept are the same on those of C105 (JSON on bytes), with the sum made of what the views answer and what is on its way. Not counted as the account's: deposits it makes for others, and deposits others make for it while they are on the way."
  },
  {
   "property": "C107",
   "status": "proved",
   "theorems": [
    "Verif.Solvency.C107_step",
    "Verif.Solvency.C107_kept",
    "Verif.Solvency.Bytes.C107_told",
    "Verif.Solvency.Bytes.C107_told_kept"
   ],
   "note": "C107_step and C107_kept on the joint executions of C66; C107_told and C107_told_kept on those of C105 (JSON on bytes), with the sum made of what the views answer and what is on its way. Both tokens are the token of the repository."
  },
  {
   "property": "C108",
   "status": "proved",
   "theorems": [
    "Verif.Solvency.C108_payment",
    "Verif.Solvency.C108_callback",
    "Verif.Solvency.C108_claims",
    "Verif.Solvency.C108_runs",
    "Verif.Solvency.Bytes.C108_paid",
    "Verif.Solvency.Bytes.C108_back",
    "Verif.Solvency.Bytes.C108_rest",
    "Verif.Solvency.Bytes.C108_runs"
   ],
   "note": "Value level: C108_payment, C108_callback, C108_claims, C108_runs; on bytes: C108_paid, C108_back, C108_rest (locked, unlocking and claimable mpDAO are told as before), C108_runs. mirrored ids are excluded from the balance answers, as in C106. A payment of 0 stNEAR that fails gives back 0 by a panicking callback, which changes nothing."
  },
  {
   "property": "C109",
   "status": "proved",
   "theorems": [
    "Verif.Solvency.C109_call",
    "Verif.Solvency.Bytes.C109_told",
    "Verif.Solvency.Bytes.C109_deposit"
   ],
   "note": "C109_call on the joint executions of C66; C109_told (any call) and C109_deposit (deposits of mpDAO) on those of C105 (JSON on bytes). What a call brings is creditOf and creditStOf of Spec/Ledger, read off the call alone. Mirrored ids are excluded, as in C106."
  }
 ]
}