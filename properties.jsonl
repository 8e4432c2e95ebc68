{"id": "C01", "title": "Voting power formula is exact and never wraps", "statement": "Locking `amount` mpDAO for `days` days yields exactly floor(amount * 10^18 * days / 60) voting power; the computation either returns that number (and it fits in 128 bits) or the call is rejected, and it is rejected precisely when days >= 3600, amount*10^18 does not fit u128, or the result does not fit u128. It is monotone in both arguments and splitting an amount loses at most one unit per split.", "quantifier": "every amount (u128) and every day count (u16)", "why_tests_cant": "the input space is 2^144; rounding and 256/128-bit overflow boundaries are only sampled by tests", "anchors": ["meta-vote-contract/src/utils.rs: calculate_voting_power, proportional"]}
{"id": "C02", "title": "Vote totals equal the sum of voters' votes", "statement": "At every moment get_total_votes(app, object) equals the sum over all voters of get_votes_for_object(voter, app, object).", "quantifier": "every reachable state, i.e. every history of calls by any accounts, every scheduling of transfer callbacks, every app and object", "why_tests_cant": "an invariant over unbounded histories with voters leaving, being mirrored, rebalanced", "anchors": ["meta-vote-contract/src/lib.rs: vote, rebalance, unvote, operator_mirror_lps", "meta-vote-contract/src/internal.rs: internal_increase_total_votes, state_internal_decrease_total_votes_for_address", "meta-vote-contract/src/view.rs: get_total_votes, get_votes_for_object"]}
{"id": "C03", "title": "A voter never spends more voting power than its locked positions carry", "statement": "For every voter, get_available_voting_power + get_used_voting_power is at most the sum of voting_power over the voter's positions reported as is_locked.", "quantifier": "every reachable state and every voter", "why_tests_cant": "needs induction over all histories of lock/unlock/relock/extend/vote/mirror", "anchors": ["meta-vote-contract/src/lib.rs", "meta-vote-contract/src/locking_position.rs", "meta-vote-contract/src/view.rs"]}
{"id": "C04", "title": "Available voting power is exactly locked power minus used power", "statement": "For every voter, get_available_voting_power + get_used_voting_power equals the sum of voting_power over the voter's locked positions (the documented meaning of the field: voter.rs line 19).", "quantifier": "every reachable state and every voter", "why_tests_cant": "needs all histories; violated only by a particular sequence (unlocking a position that is already unlocking)", "anchors": ["meta-vote-contract/src/voter.rs: Voter.available_voting_power", "meta-vote-contract/src/lib.rs: unlock_position, unlock_partial_position"]}
{"id": "C05", "title": "Contract total voting power is the sum over voters", "statement": "get_total_voting_power equals the sum over all voters of get_available_voting_power + get_used_voting_power; in particular the saturating subtraction in the unlock paths never actually saturates.", "quantifier": "every reachable state", "why_tests_cant": "invariant over unbounded histories; the saturating subtraction would silently hide a violation", "anchors": ["meta-vote-contract/src/lib.rs: unlock_position (saturating_sub), operator_mirror_lps", "meta-vote-contract/src/locking_position.rs"]}
{"id": "C06", "title": "mpDAO is conserved: liabilities plus payouts equal receipts", "statement": "The mpDAO owed by the contract (every non-mirrored voter's balance and positions, plus unclaimed mpDAO) plus the mpDAO paid out or in flight equals the mpDAO received by ft_on_transfer plus the migrated amounts (minus amounts credited to mirrored pseudo accounts). No call creates or destroys mpDAO claims.", "quantifier": "every history of calls and every interleaving of transfer results, successful or failed", "why_tests_cant": "conservation over all operation sequences and callback schedules cannot be sampled", "anchors": ["meta-vote-contract/src/deposit.rs", "meta-vote-contract/src/withdraw.rs", "meta-vote-contract/src/lib.rs", "meta-vote-contract/src/voter.rs: clear_fully_unlocked_positions"]}
{"id": "C07", "title": "stNEAR rewards are conserved", "statement": "stNEAR still claimable plus stNEAR paid out or in flight equals stNEAR received through for-claims distributions, while the stNEAR token address is not changed.", "quantifier": "every history of calls and every interleaving of transfer results", "why_tests_cant": "conservation over all operation sequences and callback schedules", "anchors": ["meta-vote-contract/src/deposit.rs: distribute_for_claims", "meta-vote-contract/src/lib.rs: claim_stnear", "meta-vote-contract/src/evm_delegate.rs: delegated_claim_stnear", "meta-vote-contract/src/withdraw.rs: after_transfer_stnear_callback"]}
{"id": "C08", "title": "Unclaimed totals equal the sum of individual claims", "statement": "get_total_unclaimed_mpdao equals the sum of get_claimable_mpdao over all accounts, the stNEAR total equals the sum of get_claimable_stnear, and no account is listed with a zero claim.", "quantifier": "every reachable state", "why_tests_cant": "invariant over unbounded histories", "anchors": ["meta-vote-contract/src/internal.rs: add_claimable, remove_claimable", "meta-vote-contract/src/view.rs: get_claims, get_stnear_claims"]}
{"id": "C09", "title": "A distribution credits exactly what was sent", "statement": "A for-claims transfer of `total` succeeds only if the listed items (times 10^6 for mpDAO, 10^20 for stNEAR) are all positive and add up to exactly `total`; then every account's claim grows by exactly the sum of its items and the accumulated counter by `total`; otherwise nothing changes. A transfer from any other token is rejected.", "quantifier": "every distribution list (with repetitions), every amount, every state", "why_tests_cant": "lists of arbitrary length with repeated accounts", "anchors": ["meta-vote-contract/src/deposit.rs: distribute_for_claims"]}
{"id": "C10", "title": "The unbonding period cannot be bypassed", "statement": "Starting from any reachable state in which all of a voter's locked positions have a period of at least D days and while min_unbond_period stays at least D, whatever calls anyone makes during the following D days, the mpDAO that voter takes out is at most its balance plus the positions whose unbonding ends within that time, at the start.", "quantifier": "every reachable state, every D, every sequence of calls and callbacks in the window", "why_tests_cant": "universally quantified over call sequences that try to combine unlock, partial unlock, relock, extend, clear, withdraw", "anchors": ["meta-vote-contract/src/lib.rs: unlock*, relock*, locking_position_extend_days, clear_locking_position", "meta-vote-contract/src/withdraw.rs"]}
{"id": "C11", "title": "Number of locking positions is bounded", "statement": "No voter ever has more than max_locking_positions locking positions (the u8 cast of the length never truncates).", "quantifier": "every reachable state and every voter", "why_tests_cant": "invariant over histories; involves a truncating cast", "anchors": ["meta-vote-contract/src/locking_position.rs: internal_create_locking_position, create_unlocking_position"]}
{"id": "C12", "title": "Number of voting positions is bounded by the configured maximum", "statement": "No voter ever has votes in more than max_voting_positions apps. (The code only enforces max_voting_positions + 1.)", "quantifier": "every reachable state and every voter", "why_tests_cant": "off-by-one at the boundary only visible after max+1 votes", "anchors": ["meta-vote-contract/src/lib.rs: internal_create_voting_position lines 581-585"]}
{"id": "C13", "title": "Locked-in votes cannot be reduced before the end timestamp", "statement": "While the vote lock-in filter is active, no voter-initiated call reduces a vote on an object of the locked app whose id contains ' #<n> '. (unvote is blocked; rebalance is not.)", "quantifier": "every state, every app/object, every time before the end timestamp, every voter call", "why_tests_cant": "requires considering every entry point that can lower a vote", "anchors": ["meta-vote-contract/src/lib.rs: internal_unvote lines 728-741, rebalance"]}
{"id": "C14", "title": "Voting has exactly its stated effect", "statement": "A successful vote(p, app, obj) lowers the caller's available power by p, raises the caller's votes for (app,obj) and the total votes of (app,obj) by p, and changes nothing else: no other voter, object, balance, position or total power. It is rejected exactly when the caller is unknown, lacks p available power, has too many voting positions, or a counter would overflow.", "quantifier": "every state, caller, amount, app, object", "why_tests_cant": "frame condition over all other voters/objects", "anchors": ["meta-vote-contract/src/lib.rs: vote, internal_vote, internal_create_voting_position"]}
{"id": "C15", "title": "Unvoting returns exactly the used power", "statement": "A successful unvote(app,obj) gives back to available power exactly the votes the caller had there, lowers the total of (app,obj) by the same number, and changes nothing else; vote followed by unvote restores the caller's previous power and the totals when the caller had no votes there.", "quantifier": "every state, caller, app, object", "why_tests_cant": "round trip for all states", "anchors": ["meta-vote-contract/src/lib.rs: unvote, internal_unvote, internal_remove_voting_position"]}
{"id": "C16", "title": "Rebalance sets the vote to the requested value", "statement": "A successful rebalance(p, app, obj) makes the caller's votes for (app,obj) equal p, moves the difference between available power and votes, adjusts the total of (app,obj) by the same difference, and changes nothing else; available + used power is unchanged.", "quantifier": "every state, caller, amount (including 0), app, object", "why_tests_cant": "increase, decrease and zero branches over all states", "anchors": ["meta-vote-contract/src/lib.rs: rebalance"]}
{"id": "C17", "title": "Any existing vote can be withdrawn", "statement": "If a voter has a vote recorded on an object and no lock-in filter applies, unvote succeeds. (True for non-zero votes; a zero-power vote can become impossible to remove.)", "quantifier": "every reachable state, voter, app, object", "why_tests_cant": "depends on the history of other voters on the same object", "anchors": ["meta-vote-contract/src/lib.rs: internal_remove_voting_position", "meta-vote-contract/src/internal.rs: state_internal_decrease_total_votes_for_address line 72"]}
{"id": "C18", "title": "Privileged calls are only accepted from the right account", "statement": "Each owner call succeeds only if the predecessor is the owner (with one yocto where required), each operator call only for the operator, migration only for the previous governance contract, and callbacks only for the contract itself.", "quantifier": "every state, caller and argument", "why_tests_cant": "quantifies over all callers and every privileged entry point", "anchors": ["meta-vote-contract/src/internal.rs: assert_only_owner, assert_operator", "meta-vote-contract/src/lib.rs", "meta-vote-contract/src/evm_delegate.rs", "meta-vote-contract/src/withdraw.rs"]}
{"id": "C19", "title": "Configuration changes only through privileged calls", "statement": "owner, operator, unbond limits, token addresses, registration cost, previous governance contract and the lock-in filter keep their values in every history without the corresponding privileged call; min_deposit_amount, max positions and the mpDAO token address never change after initialisation.", "quantifier": "every call and every history", "why_tests_cant": "frame condition over all entry points", "anchors": ["meta-vote-contract/src/lib.rs"]}
{"id": "C20", "title": "Other accounts cannot touch a voter's funds, positions or votes", "statement": "A call by account A leaves voter B's balance, positions, votes, voting power and claims unchanged for every B other than A, except: owner deposit for B, previous-governance migration for B, operator mirror of B, a delegate voting/claiming for an EVM address delegated to it, reward distribution (which only increases claims), and the contract's own callback (which only restores).", "quantifier": "every state, every caller, every call, every other account", "why_tests_cant": "isolation over all entry points and argument values", "anchors": ["meta-vote-contract/src/lib.rs", "meta-vote-contract/src/evm_delegate.rs", "meta-vote-contract/src/withdraw.rs", "meta-vote-contract/src/deposit.rs"]}
{"id": "C21", "title": "EVM delegation is single-valued and consistent", "statement": "get_delegate(e) = a exactly when e is listed in get_delegating_evm_addresses(a); each EVM address is listed under at most one account and at most once.", "quantifier": "every reachable state", "why_tests_cant": "invariant over confirm/re-delegate/remove histories", "anchors": ["meta-vote-contract/src/evm_delegate.rs: operator_confirm_delegated_evm_address, remove_delegated_evm_address"]}
{"id": "C22", "title": "Delegated actions require a confirmed, unrevoked delegation", "statement": "vote_delegated, unvote_delegated and delegated_claim_stnear for an EVM address succeed only if get_delegate reports the caller for that address, i.e. the caller pre-delegated it and the operator confirmed it; they act on the pseudo account only and pay stNEAR only to the caller.", "quantifier": "every reachable state, caller and address", "why_tests_cant": "depends on the whole delegation history", "anchors": ["meta-vote-contract/src/evm_delegate.rs: verify_delegate, delegated_claim_stnear, vote_delegated, unvote_delegated"]}
{"id": "C23", "title": "A failed mpDAO transfer is fully compensated", "statement": "If the token transfer of a withdrawal fails, the callback gives the voter's balance back exactly the withdrawn amount (re-creating the voter if it had been removed), whatever happened in between; if it succeeds the callback changes nothing.", "quantifier": "every state at callback time, every amount, every interleaving in between", "why_tests_cant": "asynchronous interleavings", "anchors": ["meta-vote-contract/src/withdraw.rs: internal_withdraw, after_transfer_mpdao_callback, restore_transfer_to_mpdao"]}
{"id": "C24", "title": "A withdrawal pays exactly what it debits and only unlocked funds", "statement": "A successful withdraw schedules exactly one mpDAO transfer to the caller, of an amount that is positive, equals the decrease of (balance + position amounts) and is at most get_balance(caller); positions that are locked or still unbonding are untouched.", "quantifier": "every state, caller, index list (unsorted, repeated) and amount", "why_tests_cant": "arbitrary index lists with swap-remove reordering", "anchors": ["meta-vote-contract/src/withdraw.rs: internal_withdraw", "meta-vote-contract/src/voter.rs: clear_fully_unlocked_positions"]}
{"id": "C25", "title": "withdraw_all pays the whole available balance", "statement": "withdraw_all pays exactly get_balance(caller) as reported before the call, leaves balance 0 and no fully unlocked position, and keeps every other position; the voter disappears exactly when nothing is left.", "quantifier": "every state, caller and time", "why_tests_cant": "positions are removed by swap-remove while iterating, for any arrangement", "anchors": ["meta-vote-contract/src/withdraw.rs: withdraw_all", "meta-vote-contract/src/voter.rs: get_unlocked_position_indexes, clear_fully_unlocked_positions"]}
{"id": "C26", "title": "Clearing positions only moves fully unlocked positions into the balance", "statement": "clear_locking_position with any index list keeps balance + sum of position amounts, never removes a locked or still-unbonding position, and never changes voting power; with pairwise distinct indexes it moves exactly the fully unlocked ones among the positions listed.", "quantifier": "every state, index list and time", "why_tests_cant": "arbitrary index lists", "anchors": ["meta-vote-contract/src/lib.rs: clear_locking_position", "meta-vote-contract/src/voter.rs: clear_fully_unlocked_positions"]}
{"id": "C27", "title": "Paginated listings enumerate every element exactly once", "statement": "Concatenating get_voters / get_claims / get_stnear_claims / get_airdrop_accounts / get_delegates pages over consecutive ranges yields every entry exactly once, in a stable order, and any (from,limit) returns the corresponding slice.", "quantifier": "every state, page size and offset", "why_tests_cant": "all sizes and offsets; overflow of from+limit", "anchors": ["meta-vote-contract/src/view.rs: get_voters, internal_get_claims", "meta-vote-contract/src/lib.rs: get_airdrop_accounts", "meta-vote-contract/src/evm_delegate.rs: get_delegates"]}
{"id": "C28", "title": "Migrated user data is stored for the migrating voter", "statement": "migration_create_lps with encrypted user data for voter V registers the data under V. (The code registers it under the calling contract.)", "quantifier": "every state, voter and data", "why_tests_cant": "wrong key only visible on the view of the voter", "anchors": ["meta-vote-contract/src/lib.rs: migration_create_lps lines 818-829"]}
{"id": "C29", "title": "Migration credits converted amounts", "statement": "A successful migration for V increases the sum of V's position amounts by the sum of floor(amount/10^18), adds the corresponding voting power to V and to the contract total, and changes no other voter.", "quantifier": "every list of positions and state", "why_tests_cant": "lists of arbitrary length", "anchors": ["meta-vote-contract/src/lib.rs: migration_create_lps"]}
{"id": "C30", "title": "Unbonding periods stay within the configured limits", "statement": "A locking position created or changed by a user always has a period between min_unbond_period and max_unbond_period. (locking_position_extend_days does not check the maximum; only < 3600 days is guaranteed.)", "quantifier": "every reachable state, voter and position", "why_tests_cant": "needs every entry point that sets a period", "anchors": ["meta-vote-contract/src/locking_position.rs: deposit_locking_position", "meta-vote-contract/src/lib.rs: locking_position_extend_days"]}
{"id": "C31", "title": "At most one locked position per unbonding period", "statement": "A voter never has two locked positions with the same unbonding period. (Extending a position can create a duplicate.)", "quantifier": "every reachable state and voter", "why_tests_cant": "depends on histories mixing deposits and extensions", "anchors": ["meta-vote-contract/src/locking_position.rs: internal_create_locking_position lines 94-99", "meta-vote-contract/src/lib.rs: locking_position_extend_days"]}
{"id": "C32", "title": "Locking positions respect the minimum deposit", "statement": "Every locked position created by deposits and relocks holds at least min_deposit_amount. (relock_partial_position checks the wrong amount, so a remainder below the minimum can be left and re-locked.)", "quantifier": "every reachable state, voter and position", "why_tests_cant": "boundary combination of partial relock and relock", "anchors": ["meta-vote-contract/src/lib.rs: relock_partial_position lines 457-463, relock_position"]}
{"id": "C33", "title": "Re-locking never shortens the wait", "statement": "A successful relock of an unlocking position produces a locked position whose period is longer than the remaining unbonding time, moves exactly the requested amounts, and requires the position to be unlocking.", "quantifier": "every state, index, period, amounts and time", "why_tests_cant": "all times around the boundary", "anchors": ["meta-vote-contract/src/lib.rs: relock_position, relock_partial_position"]}
{"id": "C34", "title": "A voter without votes can always start unlocking", "statement": "If a voter has no used voting power, unlock_position succeeds on each of its locked positions. (False after unlocking an already unlocking position.)", "quantifier": "every reachable state, voter and locked position", "why_tests_cant": "depends on history", "anchors": ["meta-vote-contract/src/lib.rs: unlock_position"]}
{"id": "C35", "title": "Unlocking removes exactly the position's power", "statement": "A successful unlock of a locked position starts its unbonding now, removes exactly its voting power from available and total power, keeps all amounts; a partial unlock splits off exactly `amount` into a new unlocking position with the same period and leaves at least the minimum deposit.", "quantifier": "every state, index, amount and time", "why_tests_cant": "all splits and rounding", "anchors": ["meta-vote-contract/src/lib.rs: unlock_position, unlock_partial_position", "meta-vote-contract/src/locking_position.rs: create_unlocking_position"]}
{"id": "C36", "title": "Extending a position adds exactly the extra power", "statement": "A successful locking_position_extend_days sets the new, longer period on a locked position, sets its power to the formula value, and raises available and total power by the difference.", "quantifier": "every state, index and period", "why_tests_cant": "rounding remainders after partial unlocks", "anchors": ["meta-vote-contract/src/lib.rs: locking_position_extend_days"]}
{"id": "C37", "title": "Mirroring installs exactly the given positions and trims votes", "statement": "After operator_mirror_lps(addr, lps): the pseudo account's positions are exactly lps (locked), available + used equals the sum of their power, used power is at most that sum, no votes are removed if they already fit, and the contract total changes by new minus old power. The vote-removal loop terminates and never indexes an empty list.", "quantifier": "every reachable state and every list of positions", "why_tests_cant": "loop over arbitrary vote maps", "anchors": ["meta-vote-contract/src/lib.rs: operator_mirror_lps"]}
{"id": "C38", "title": "Deposits are credited exactly, and only from the mpDAO token", "statement": "An accepted ft_on_transfer deposit comes from the mpDAO token contract, credits the named voter's position of that period by exactly the amount, and returns 0 unused; a message with a number credits the sender; '[voter,days]' is only accepted from the owner; everything else is rejected without effect so that the token refunds it.", "quantifier": "every message (byte string), amount, sender, predecessor and state", "why_tests_cant": "message space is unbounded", "anchors": ["meta-vote-contract/src/deposit.rs: ft_on_transfer"]}
{"id": "C39", "title": "Claim-and-lock moves a claim into a position", "statement": "claim_and_lock(amount, days) lowers the caller's claimable mpDAO by amount, raises its locked amount by the same amount, and the contract liabilities are unchanged.", "quantifier": "every state, amount and period", "why_tests_cant": "all states", "anchors": ["meta-vote-contract/src/lib.rs: claim_and_lock"]}
{"id": "C40", "title": "stNEAR claims pay the claimed amount once", "statement": "claim_stnear / delegated_claim_stnear lower the claim by exactly the amount and schedule one transfer of that amount to the caller; if the transfer fails, the claim is restored exactly.", "quantifier": "every state, amount, and interleaving", "why_tests_cant": "asynchronous failure handling", "anchors": ["meta-vote-contract/src/lib.rs: claim_stnear", "meta-vote-contract/src/withdraw.rs: transfer_stnear_to_voter, after_transfer_stnear_callback"]}
{"id": "C41", "title": "Every position is exactly one of locked, unlocking, unlocked; balances partition", "statement": "At every time each position satisfies exactly one of is_locked / is_unlocking / is_unlocked, and get_balance + get_locked_balance + get_unlocking_balance equals the voter's balance plus all position amounts.", "quantifier": "every voter state and every time", "why_tests_cant": "all timestamps around the boundary", "anchors": ["meta-vote-contract/src/locking_position.rs: is_locked, is_unlocking, is_unlocked", "meta-vote-contract/src/voter.rs: sum_*", "meta-vote-contract/src/view.rs"]}
{"id": "C42", "title": "Airdrop data is written only by its owner (for the fee), the operator or migration", "statement": "The data registered for an account changes only by that account paying exactly the registration cost, by the operator, or by the previous governance contract registering its own key once; and check_if_registered reports exactly registered accounts.", "quantifier": "every call and state", "why_tests_cant": "frame over all entry points", "anchors": ["meta-vote-contract/src/lib.rs: update_airdrop_user_data, operator_multi_set_airdrop_data, migration_create_lps"]}
{"id": "C43", "title": "Storage prefixes of different collections never collide", "statement": "Any two distinct collections of the contract use storage prefixes neither of which is a prefix of the other, so writes to one never alter the other (assuming the hash has no collisions).", "quantifier": "all pairs of storage keys and identifiers", "why_tests_cant": "pairs over unbounded identifiers", "anchors": ["meta-vote-contract/src/constants.rs: StorageKey", "mpip-contract/src/constants.rs: StorageKey"]}
{"id": "C44", "title": "Vote maps of different (voter, app) pairs are stored separately", "statement": "The identifier hashed to store a voter's votes for an app is different for different (voter, app) pairs. (The code joins them with '-', which account ids and app names may contain.)", "quantifier": "all pairs of (voter, app)", "why_tests_cant": "collision needs specially chosen names", "anchors": ["meta-vote-contract/src/voter.rs: get_vote_position_for_address line 105"]}
{"id": "C45", "title": "State migration preserves all user state", "statement": "migrate() keeps every voter, vote, claim, delegation and configuration value unchanged and only initialises the lock-in filter to 'off'; only the contract account can call it.", "quantifier": "every old state", "why_tests_cant": "all states", "anchors": ["meta-vote-contract/src/migrate.rs"]}
{"id": "C46", "title": "MPIP tallies equal the recorded votes", "statement": "For every proposal, for/against/abstain totals equal the sum of the voting power of the recorded votes of that type. (Two vote calls in flight for the same voter break it; totals never fall below the recorded sums.)", "quantifier": "every history and every interleaving of cross-contract replies", "why_tests_cant": "asynchronous interleavings (race between vote_proposal and its callback)", "anchors": ["mpip-contract/src/lib.rs: vote_proposal, vote_proposal_callback, remove_vote_proposal", "mpip-contract/src/vote_counting.rs"]}
{"id": "C47", "title": "A voter's weight is counted at most once per proposal", "statement": "One voter contributes at most its voting power once to a proposal's tallies. (False: a second vote_proposal sent before the first callback is counted again.)", "quantifier": "every schedule of calls and callbacks", "why_tests_cant": "requires a specific interleaving", "anchors": ["mpip-contract/src/lib.rs: vote_proposal, vote_proposal_callback"]}
{"id": "C48", "title": "Per-voter and per-proposal vote records agree", "statement": "has_voted(voter, id) and get_my_vote(voter, id) report exactly the vote listed for that voter in get_proposal_votes(id).", "quantifier": "every reachable state under every interleaving", "why_tests_cant": "two maps updated by different calls over unbounded histories", "anchors": ["mpip-contract/src/lib.rs", "mpip-contract/src/voter.rs", "mpip-contract/src/vote_counting.rs"]}
{"id": "C49", "title": "Votes are only counted during the voting window", "statement": "A vote is added to the tallies only while the proposal is in its voting window. (The window is checked when the call is made, not when the callback counts it.)", "quantifier": "every schedule", "why_tests_cant": "asynchronous delay between check and effect", "anchors": ["mpip-contract/src/lib.rs: vote_proposal, vote_proposal_callback"]}
{"id": "C50", "title": "Removing a vote is the exact inverse of voting", "statement": "remove_vote_proposal never fails with an arithmetic error, subtracts exactly the recorded power from the recorded type, erases the record on both sides and changes no other vote; vote then remove restores the previous tallies.", "quantifier": "every reachable state", "why_tests_cant": "needs the tally lower-bound invariant over all interleavings", "anchors": ["mpip-contract/src/lib.rs: remove_vote_proposal"]}
{"id": "C51", "title": "Proposal ids are dense, unique and permanent", "statement": "Proposals are numbered 0,1,2,... in creation order; existing proposals are never deleted or replaced, get_last_proposal_id is the count minus one, and each creator's list holds exactly the ids it created (below 2^32 proposals).", "quantifier": "every history", "why_tests_cant": "unbounded histories; u32 truncation", "anchors": ["mpip-contract/src/lib.rs: create_proposal_callback, get_last_proposal_id", "mpip-contract/src/mpip.rs: internal_create_proposal"]}
{"id": "C52", "title": "Proposal content is frozen once voting has started", "statement": "After the millisecond in which voting started, no call changes title, description, body, data, extra or creator of a proposal.", "quantifier": "every call, state and later time", "why_tests_cant": "frame condition over all entry points and times", "anchors": ["mpip-contract/src/lib.rs: update_proposal", "mpip-contract/src/internal.rs: internal_proposal_is_active_or_draft"]}
{"id": "C53", "title": "Canceled and executed are terminal", "statement": "Once get_proposal_state reports Canceled or Executed, it reports the same forever, and a proposal is never both canceled and executed.", "quantifier": "every history and interleaving", "why_tests_cant": "all continuations", "anchors": ["mpip-contract/src/lib.rs: cancel_proposal, process_voting_status, start_voting_period_callback", "mpip-contract/src/mpip.rs: internal_get_proposal_state"]}
{"id": "C54", "title": "Quorum is the configured share of total voting power at start", "statement": "When voting starts the required quorum is floor(total_power * bps / 10000), never more than total_power; quorum_floor never exceeds 10000.", "quantifier": "every total, every basis-points value, every history", "why_tests_cant": "integer rounding of two divisions; all histories", "anchors": ["mpip-contract/src/internal.rs: internal_get_quorum", "mpip-contract/src/lib.rs: start_voting_period_callback, update_quorum_floor"]}
{"id": "C55", "title": "Proposal state is well-defined and as documented", "statement": "For every existing proposal get_proposal_state returns without error and equals the documented classification (Executed, Canceled, Draft, VotingProcess, Active, Accepted iff quorum and majority, else Rejected).", "quantifier": "every reachable state and time", "why_tests_cant": "error paths (unset quorum / end) must be shown unreachable", "anchors": ["mpip-contract/src/mpip.rs: internal_get_proposal_state", "mpip-contract/src/internal.rs"]}
{"id": "C56", "title": "Only passed proposals get executed", "statement": "A proposal is marked executed only if it reached quorum and its for-votes exceed its against-votes, after the end of voting. (The code checks only the quorum, and only at the exact end millisecond.)", "quantifier": "every reachable state and time", "why_tests_cant": "single-millisecond window and missing majority check", "anchors": ["mpip-contract/src/lib.rs: process_voting_status"]}
{"id": "C57", "title": "A passed proposal can be executed after voting ends", "statement": "Once the voting period is over and the quorum is reached, process_voting_status marks the proposal executed. (After the end millisecond the call does nothing.)", "quantifier": "every state and time after the end", "why_tests_cant": "time boundary", "anchors": ["mpip-contract/src/lib.rs: process_voting_status lines 495-499"]}
{"id": "C58", "title": "MPIP privileged calls need the right signer", "statement": "Admin setters succeed only for transactions signed by the admin; operator setters only for admin or operator; start/cancel only for operator or the proposal's creator; update only for the creator; callbacks only for the contract itself.", "quantifier": "every state, signer and argument", "why_tests_cant": "all entry points", "anchors": ["mpip-contract/src/internal.rs: assert_only_*", "mpip-contract/src/lib.rs"]}
{"id": "C59", "title": "Creating a proposal requires enough locked voting power and storage deposit", "statement": "A proposal is only added by a create_proposal call made while the contract was open with at least the required deposit attached, and only if the locked voting power reported by the meta-vote contract reaches the threshold in force at callback time; unlocking positions do not count.", "quantifier": "every history and every reply", "why_tests_cant": "asynchronous reply handling", "anchors": ["mpip-contract/src/lib.rs: create_proposal, create_proposal_callback", "mpip-contract/src/internal.rs: internal_get_user_total_voting_power_from_promise"]}
{"id": "C60", "title": "The voting window does not move once set", "statement": "Once voting has started, start and end timestamps and quorum stay fixed. (Two start_voting_period calls in flight restart the window.)", "quantifier": "every schedule", "why_tests_cant": "race between two starts", "anchors": ["mpip-contract/src/lib.rs: start_voting_period, start_voting_period_callback"]}
{"id": "C61", "title": "Key-value store behaves like a map", "statement": "After any history, get_value(k) is the value of the last accepted write to k not followed by a removal; remove_value returns the previous value; get_kv_count is the number of present keys.", "quantifier": "every history of operations", "why_tests_cant": "all histories; swap-remove container", "anchors": ["kv-store-contract/src/lib.rs"]}
{"id": "C62", "title": "Key-value store is only written by the operator and configured by the owner", "statement": "Every accepted write has the operator as predecessor at that time; operator/owner change only by an owner call with one yocto attached.", "quantifier": "every history and caller", "why_tests_cant": "all callers and histories", "anchors": ["kv-store-contract/src/lib.rs"]}
{"id": "C63", "title": "Key-value pagination is exact", "statement": "get_values(from,limit) is the slice [from, from+limit) of a fixed duplicate-free enumeration of all present keys with their values; it never fails.", "quantifier": "every state, from, limit", "why_tests_cant": "all sizes", "anchors": ["kv-store-contract/src/lib.rs: get_values"]}
{"id": "C64", "title": "Test token supply equals the sum of balances", "statement": "ft_total_supply equals the sum of all account balances after any history of transfers, transfer-calls and their resolutions, mints, burns and unregistrations.", "quantifier": "every history and interleaving of resolutions", "why_tests_cant": "unbounded histories with asynchronous refunds", "anchors": ["test-meta-token/src/lib.rs"]}
{"id": "C65", "title": "Only listed minters create tokens; only holders destroy their own", "statement": "Supply grows only by ft_mint from an account currently in get_minters, credited to itself; minters change only by the owner; ft_burn reduces only the caller's balance.", "quantifier": "every call and state", "why_tests_cant": "all entry points", "anchors": ["test-meta-token/src/lib.rs: ft_mint, ft_burn, add_minter, remove_minter"]}
{"id": "C66", "title": "End-to-end solvency of meta-vote with its token", "statement": "In the composed system (token contract + meta-vote + all in-flight receipts), the token balance of the meta-vote contract always covers everything it owes to non-mirrored voters, unclaimed rewards, and in-flight withdrawals, so a refund or withdrawal transfer never fails for lack of funds (migrated positions counted as pre-funded).", "quantifier": "every interleaving of receipts of both contracts", "why_tests_cant": "cross-contract interleavings", "anchors": ["meta-vote-contract/src/deposit.rs", "meta-vote-contract/src/withdraw.rs", "test-meta-token/src/lib.rs"]}
{"id": "C67", "title": "Governance weight equals locked power at the time of the reply", "statement": "The power recorded for an MPIP vote equals the sum of voting power of the positions that the meta-vote contract reported as locked for that voter when it answered, whatever is voted elsewhere.", "quantifier": "every meta-vote state and schedule", "why_tests_cant": "cross-contract composition", "anchors": ["mpip-contract/src/internal.rs: internal_get_user_total_voting_power_from_promise", "meta-vote-contract/src/view.rs: get_all_locking_positions"]}
{"id": "C68", "title": "Per-account ledger", "statement": "For every account that is not a mirrored EVM pseudo account: balance plus position amounts plus claimable mpDAO, plus its mpDAO transfers in flight, already paid, or lost because the refunding callback overflowed, equals the mpDAO credited to it by deposits, distributions and migrations. The same holds for claimable stNEAR, for every account.", "quantifier": "every reachable state, every account", "why_tests_cant": "unbounded histories of all calls of all users", "anchors": ["meta-vote-contract/src/lib.rs", "meta-vote-contract/src/withdraw.rs", "meta-vote-contract/src/deposit.rs", "meta-vote-contract/src/internal.rs"]}
{"id": "C69", "title": "The operator confirms the delegation request that they checked", "statement": "If the pending request for an EVM address that the operator has looked at is the one of account A, a later accepted confirmation of that address makes A its delegate.", "quantifier": "every reachable state, every later history, every address and account", "why_tests_cant": "depends on calls of other accounts between the look and the confirmation", "anchors": ["meta-vote-contract/src/evm_delegate.rs: pre_delegate_evm_address, operator_confirm_delegated_evm_address, get_pre_delegate_evm_address"]}
{"id": "C70", "title": "Lists of votes are complete, without repetition, and sorted", "statement": "get_votes_by_app lists every object of the app with votes exactly once, with get_total_votes; get_votes_by_contract is the same list sorted by votes; get_votes_by_voter lists every (app, object) with votes of the voter exactly once, with get_votes_for_object, sorted by votes.", "quantifier": "every state, app and voter", "why_tests_cant": "maps of every size and every order of insertion and removal", "anchors": ["meta-vote-contract/src/view.rs: get_votes_by_app, get_votes_by_contract, get_votes_by_voter"]}
{"id": "C71", "title": "Only the holder, or the settlement of a transfer-call to them, lowers a token balance", "statement": "ft_balance_of(a) decreases only in a call by a (a transfer or burn of that amount, or a forced storage_unregister), or when the token settles an outstanding ft_transfer_call whose receiver is a, then by at most its amount; a transfer-call becomes outstanding only when its sender has paid the receiver the amount.", "quantifier": "every state, call, caller, and every interleaving of settlements", "why_tests_cant": "all entry points and interleavings", "anchors": ["test-meta-token/src/lib.rs: ft_transfer, ft_transfer_call, ft_resolve_transfer, ft_burn, storage_unregister"]}
{"id": "C72", "title": "Settling a transfer-call refunds exactly the unused part", "statement": "The settlement of an outstanding ft_transfer_call never fails; it takes min(receiver's balance, amount, reported unused amount; the amount if the receiver failed) from the receiver, and gives it to the sender or, if the sender is no longer registered, removes it from the supply; nothing else changes.", "quantifier": "every reachable state, outstanding transfer-call and result of the receiver", "why_tests_cant": "all interleavings of settlements with other calls", "anchors": ["test-meta-token/src/lib.rs: ft_resolve_transfer"]}
{"id": "C73", "title": "The stored vote maps behave like maps", "statement": "Votes, unvotes and rebalances have the same effect on the storage of the contract as on plain maps from (voter, app, object) to votes and from (app, object) to totals: in particular a voter who withdrew everything and comes back starts without votes, and an unvote in an app changes only votes cast in that app by that voter.", "quantifier": "every reachable state of the contract storage, every call", "why_tests_cant": "needs all histories of creation, removal and re-creation of nested maps over the same storage prefix", "anchors": ["meta-vote-contract/src/voter.rs: Voter::new, is_empty, get_vote_position_for_address", "meta-vote-contract/src/withdraw.rs: internal_withdraw", "meta-vote-contract/src/lib.rs: internal_create_voting_position, internal_remove_voting_position, rebalance", "meta-vote-contract/src/internal.rs: internal_increase_total_votes, state_internal_decrease_total_votes_for_address"]}
{"id": "C74", "title": "A voter can always get everything back alone", "statement": "A voter who holds funds can, without anybody's help, make calls after which everything they held (available or in positions) is in one transfer to them and their record is gone: wait for the end of the lock-in, unvote, unlock, wait, withdraw_all.", "quantifier": "every reachable state, every voter with funds, every set of votes and positions", "why_tests_cant": "existence of a way out from every reachable state, for any number of votes and positions", "anchors": ["meta-vote-contract/src/lib.rs: unvote, unlock_position", "meta-vote-contract/src/withdraw.rs: withdraw_all, internal_withdraw"]}
{"id": "C75", "title": "The power of a position is the formula, up to rounding", "statement": "The voting power shown for a position differs from amount (6 decimals, scaled to 24) times days divided by 60 by at most one unit (10^-24) for the position and one for every deposit, migration, lock, relock or partial unlock in the history of the voter.", "quantifier": "every reachable state, every voter, every position", "why_tests_cant": "error accumulates over histories of any length", "anchors": ["meta-vote-contract/src/utils.rs: calculate_voting_power", "meta-vote-contract/src/locking_position.rs: increase_locking_position, internal_create_locking_position", "meta-vote-contract/src/lib.rs: unlock_partial_position, relock_partial_position"]}
{"id": "C76", "title": "A call is accepted exactly under its stated conditions", "statement": "For every method, the conditions on caller, attached deposit, arguments and stored records under which a call is accepted are exactly the listed ones (MayCall): under them it never fails, otherwise it always fails. For example claim_and_lock is accepted iff no deposit is attached, the amount is at least the minimum and at most the claimable amount, the account has a record, the period is allowed, there is room for the position or one of the same period, and the resulting sums fit.", "quantifier": "every reachable state, every caller, every method and all arguments", "why_tests_cant": "absence of any other failure (overflow, underflow, missing record) in every reachable state", "anchors": ["meta-vote-contract/src/lib.rs: all methods", "meta-vote-contract/src/withdraw.rs: withdraw, withdraw_all, claim_stnear, after_transfer_mpdao_callback, after_transfer_stnear_callback", "meta-vote-contract/src/deposit.rs: ft_on_transfer", "meta-vote-contract/src/evm_delegate.rs: all methods"]}
{"id": "C77", "title": "mpip accepts a call exactly under its stated conditions", "statement": "For every method of mpip and each of its three callbacks, the call is accepted iff the listed conditions hold: deposit, role, state of the proposal at that time, whether the account has voted and, for the callbacks, what meta-vote answered. In particular no arithmetic failure other than the listed overflows exists, and a proposal whose period is over can be processed.", "quantifier": "every reachable state, every caller and time, every method and all arguments, every answer of meta-vote", "why_tests_cant": "absence of any other failure in every reachable state", "anchors": ["mpip-contract/src/lib.rs: all methods", "mpip-contract/src/internal.rs: assert_*, internal_*", "mpip-contract/src/mpip.rs: Mpip"]}
{"id": "C78", "title": "The token and the key-value store accept a call exactly under their stated conditions", "statement": "The test token accepts a call iff the listed conditions on deposit, caller, registration and balances hold: a transfer iff one yocto is attached, sender and receiver differ, the amount is positive and covered and the receiver is registered; a resolution iff the contract itself calls it; closing an account iff it is empty, absent or forced. The key-value store accepts a write iff the operator sends it without deposit and a change of role iff the owner sends it with one yocto.", "quantifier": "every state (store), every reachable state (token), every caller, every method and all arguments", "why_tests_cant": "absence of overflow and underflow failures in every reachable state", "anchors": ["test-meta-token/src/lib.rs: all methods", "kv-store-contract/src/lib.rs: all methods"]}
{"id": "C79", "title": "The stored collections of mpip behave like tables", "statement": "Proposals, votes per proposal, votes per voter and proposals per account, kept as near-sdk collections with hashed prefixes over contract storage, behave like plain tables: no call or view panics on inconsistent entries, entries left by a removed record never reappear, a voter who removed their last vote and votes again starts with an empty record, and no proposal or voter sees the entries of another one.", "quantifier": "every execution of the contract over storage, every call, every view", "why_tests_cant": "needs all histories of insertion, removal and re-creation of nested maps over the same storage prefix", "anchors": ["mpip-contract/src/voter.rs: Voter::new", "mpip-contract/src/vote_counting.rs: ProposalVote::new, to_json", "mpip-contract/src/constants.rs: StorageKey", "mpip-contract/src/lib.rs: vote_proposal_callback, remove_vote_proposal", "mpip-contract/src/internal.rs: internal_get_voter, internal_get_proposal_vote"]}
{"id": "C80", "title": "Settings and proposals of mpip are those the history says", "statement": "Every setting of mpip has the value given by the last accepted call that sets it, or at the initialization; a call that sets one changes nothing else. Every proposal has the texts of its last accepted edit, the creator who asked for it, the start, end and quorum of its last start (computed with the period and the floor of that moment and the total that meta-vote reported), is canceled iff a cancellation was accepted, and executed iff it was processed in the last millisecond of its voting with the quorum reached. Each call starts exactly the promises it stands for.", "quantifier": "every history of accepted calls and replies below 2^32 proposals, every setting, every proposal", "why_tests_cant": "histories of any length with interleaved replies and changing settings", "anchors": ["mpip-contract/src/lib.rs: new, update_*, start_voting_period, start_voting_period_callback, create_proposal_callback, cancel_proposal, update_proposal, process_voting_status", "mpip-contract/src/mpip.rs: internal_create_proposal"]}
{"id": "C81", "title": "The token keeps the ledger that its calls describe", "statement": "Balances, registrations, supply, owner and minters of the test token are, after every history, those of a plain ledger to which the accepted calls were applied in order: a mint credits the minter, a burn debits the caller, a transfer moves exactly the amount, a resolution returns exactly what the receiver did not use and still has (or destroys it if the sender has closed the account), opening an account costs exactly the storage price, and closing returns it and destroys the balance. Each call pays back and notifies exactly what it says, and no other account is affected.", "quantifier": "every history of accepted calls, every account", "why_tests_cant": "histories of any length with any interleaving of resolutions", "anchors": ["test-meta-token/src/lib.rs: all methods"]}
{"id": "C82", "title": "The contract keeps exactly the books its calls describe", "statement": "For every method of meta-vote, the effect of an accepted call on everything the contract keeps (record of each voter, number of voters, total power, votes per object, claimable amounts and their totals, airdrop data, delegations, settings) is exactly the one stated for the method, nothing else changes, and exactly the stated transfers are started. After every history all of it is what replaying the accepted calls and the failed transfers on the books of a fresh contract gives, and the views of single records are functions of these books.", "quantifier": "every state and every accepted call; every history of calls, transfers and failures", "why_tests_cant": "complete effect on unbounded state, and histories of any length", "anchors": ["meta-vote-contract/src/lib.rs: all methods", "meta-vote-contract/src/withdraw.rs: all methods", "meta-vote-contract/src/deposit.rs: ft_on_transfer, distribute_for_claims", "meta-vote-contract/src/evm_delegate.rs: all methods", "meta-vote-contract/src/view.rs: all views"]}
{"id": "C83", "title": "Only the books decide what happens next", "statement": "Two meta-vote contracts with the same books, whatever their histories and in whatever order their lists show the accounts, accept the same calls with the same transfers and have the same books afterwards, after any number of further steps. So a listing order that an earlier deletion or another sequence of deposits left behind has no influence on funds, power or votes.", "quantifier": "every pair of reachable states with the same books, every continuation", "why_tests_cant": "relates two unbounded executions", "anchors": ["meta-vote-contract/src/lib.rs: all methods", "meta-vote-contract/src/withdraw.rs: all methods", "meta-vote-contract/src/deposit.rs: ft_on_transfer", "meta-vote-contract/src/evm_delegate.rs: all methods"]}
{"id": "C84", "title": "The log tells the votes, the payments and the deposits", "statement": "Someone who only follows the log lines of meta-vote knows the votes of every account for every object at every moment (a vote adds, a rebalance sets, an unvote and a mirroring remove, and an account that leaves loses its record), the mpDAO and stNEAR actually paid to every account, the account and amount of every deposit, and, for every mirroring, the power before and after, the power in use and the votes taken back in order. Reading the text of the lines is enough if names have no spaces.", "quantifier": "every history of calls, transfers and failures; every account, app and object; every line", "why_tests_cant": "needs the whole sequence of lines of histories of any length, and that the text of different events is never the same", "anchors": ["meta-vote-contract/src/lib.rs: every log!", "meta-vote-contract/src/withdraw.rs: every log!", "meta-vote-contract/src/deposit.rs: ft_on_transfer", "meta-vote-contract/src/evm_delegate.rs: vote_delegated, unvote_delegated"]}
{"id": "C85", "title": "mpip keeps exactly the books its calls describe, and only they decide what happens next", "statement": "For every method and reply of mpip, the effect on everything the contract keeps (settings, proposals, tallies, standing votes) is exactly the one stated, nothing else changes, and exactly the stated questions and payments are started. After every history all of it is what replaying the accepted calls and replies gives. Two contracts with the same books, whatever the order in which votes arrived, accept the same calls and replies with the same results for ever after, and show the same in every view, up to the order of lists.", "quantifier": "every reachable state, every accepted call or reply, every history, every pair of reachable states with the same books", "why_tests_cant": "complete effect on unbounded state, histories of any length, pairs of executions", "anchors": ["mpip-contract/src/lib.rs: all methods and views", "mpip-contract/src/internal.rs", "mpip-contract/src/mpip.rs: internal_create_proposal, internal_get_proposal_state"]}
{"id": "C86", "title": "A call takes exactly its price in NEAR, and NEAR leaves only where it should", "statement": "What a call takes in NEAR is its price: one yocto for what needs a full access key, the fee for user data, the storage price for a proposal, and nothing for the rest; the deposit of a proposal that is not created comes back. NEAR leaves meta-vote only as one yocto to the token with each payment of tokens, and leaves mpip only by order of the admin, or as one yocto to meta-vote with each question.", "quantifier": "every state and accepted call; every history of calls, replies and failures; every account", "why_tests_cant": "histories of any length, and what never happens in any future", "anchors": ["meta-vote-contract/src/lib.rs: update_airdrop_user_data and all payable methods", "meta-vote-contract/src/withdraw.rs: transfer_mpdao_to_voter, transfer_stnear_to_voter", "meta-vote-contract/src/evm_delegate.rs: delegated_claim_stnear", "mpip-contract/src/lib.rs: pay_to_account, create_proposal, start_voting_period, vote_proposal"]}
{"id": "C87", "title": "Everything in the one storage of a contract behaves as separate tables", "statement": "All maps, vectors and lookup maps of a contract, and its own state, share one storage of bytes. Whatever sequence of reads, writes, removals, listings and pushes is made on whichever of them, each answers as if it were alone: reads give the last value written under the same key, listings have every key once in the order that removals define, an index out of range panics and nothing else does, and a write to one never changes another or the state of the contract. The bytes in storage depend on the contents only, so nothing is left behind in storage when the records are removed.", "quantifier": "every sequence of fewer than 2^64 operations on any number of collections, all keys and values, provided the hashes of the ids in use differ", "why_tests_cant": "unbounded sequences over an unbounded family of collections; interference would show only for particular byte strings", "anchors": ["meta-vote-contract/src/lib.rs: MetaVoteContract, new", "meta-vote-contract/src/constants.rs: StorageKey", "meta-vote-contract/src/voter.rs: Voter", "mpip-contract/src/lib.rs: MpipContract, new", "mpip-contract/src/constants.rs: StorageKey", "kv-store-contract/src/lib.rs: KVStoreContract", "test-meta-token/src/lib.rs: StorageKey"]}
{"id": "C88", "title": "What is written to storage is what is read, and an upgrade keeps every value", "statement": "Every record and state that the contracts store is read back as the value that was written and as no other, whatever the names and numbers in it, and bytes that are too short, too long or of another shape are refused. Migrating meta-vote keeps every field of the old state and starts with the lock-in filter off; a state that is already in the new layout cannot be migrated again and is left as it is, and the old state cannot be used without migration. Every amount, power, vote count, date and setting that any history of calls produces is in the range of its stored type, so nothing is cut off when stored.", "quantifier": "every value of every stored type, every byte string, every old state, every reachable state", "why_tests_cant": "unbounded strings and lists, all integers up to 128 bits, states of histories of any length", "anchors": ["meta-vote-contract/src/lib.rs: MetaVoteContract", "meta-vote-contract/src/migrate.rs: OldState, migrate", "meta-vote-contract/src/voter.rs: Voter", "meta-vote-contract/src/locking_position.rs: LockingPosition", "mpip-contract/src/lib.rs: MpipContract", "mpip-contract/src/mpip.rs: Mpip", "mpip-contract/src/vote.rs: Vote, VoteType", "mpip-contract/src/vote_counting.rs: ProposalVote", "mpip-contract/src/voter.rs: Voter", "kv-store-contract/src/lib.rs: KVStoreContract", "test-meta-token/src/lib.rs: Contract"]}
{"id": "C89", "title": "The key-value store, run on the bytes of its storage, keeps what it is told", "statement": "Installed on storage that holds none of its entries, whatever calls are then made by whomever: a call is accepted exactly when the account that makes it has the role at that moment and attaches what the call needs; a removal answers with the value removed; every value shown is the one last stored under the key; the pages show every key once with its value, and the count is their number; and no other entry of the storage is changed. No call or view fails because of what is in storage.", "quantifier": "every list of calls with fewer than 2^64 writes in total, all keys and values of less than 2^32 bytes, all accounts, any other contents of the storage", "why_tests_cant": "unbounded histories, all strings, every byte of storage", "anchors": ["kv-store-contract/src/lib.rs: KVStoreContract, StorageKey, new, set_operator_id, set_owner_id, set_value, set_values, remove_value, get_value, get_values, get_kv_count"]}
{"id": "C90", "title": "Balances and supply of the token can be read from its log", "statement": "From the lines that the token writes anyone can compute, at every moment, the balance of every account and the supply: what mints and transfers give to an account is what transfers and burns take from it, plus what it held when it was closed, plus its balance; and the lines of each call tell the effect of that call. The events of the token standard alone are not enough: closing an account by force destroys its balance without a burn event.", "quantifier": "every execution of any length with any calls, replies and failures of transfer-calls in any order; every account", "why_tests_cant": "histories of any length with interleaved settlements", "anchors": ["test-meta-token/src/lib.rs: new, ft_mint, ft_burn, ft_transfer, ft_transfer_call, ft_resolve_transfer, storage_unregister"]}
{"id": "C91", "title": "The token, run on the bytes of its storage, does what its interface says, and accounts pay for their storage", "statement": "Installed on storage that holds none of its entries, whatever calls are then made by whomever and however transfer-calls settle: the balance of every account and the supply, as the views show them, are what the lines written say; the balances of all accounts add up to the supply; the metadata shown is what was given at installation; an account costs the price of 125 bytes, which is shown and which pays for the bytes that the account uses whatever its id; and no other entry of the storage is changed. No call or view fails because of what is in storage. A second installation and metadata that the token standard does not allow are refused.", "quantifier": "every list of calls and settlements with fewer than 2^32 additions of minters, all ids of at most 64 bytes, all amounts, any other contents of the storage", "why_tests_cant": "unbounded histories, all ids, every byte of storage", "anchors": ["test-meta-token/src/lib.rs: Contract, StorageKey, new, ft_mint, ft_burn, ft_transfer, ft_transfer_call, ft_resolve_transfer, storage_deposit, storage_unregister, storage_balance_bounds, storage_balance_of, ft_metadata"]}
{"id": "C92", "title": "Meta-vote, run on the bytes of its storage, does what the model over its collections does", "statement": "Installed on storage that holds none of its entries, whatever calls are then made by whomever and however transfers end: each call on the bytes is refused with the same message, or accepted with the same transfers and the same effect, as the contract over its collections; every view answers from the bytes what it answers there; no other entry of the storage is changed; a second installation is refused and nothing but an installation is accepted before. As long as no account leaves with votes of power zero and no two pairs of voter and app in use have the same joined name, the bytes answer what plain maps would answer. On the storage of the earlier version every call but the migration fails, and the migration keeps every collection and every setting, with the lock-in filter off.", "quantifier": "every history of calls, outcomes of transfers and ticks, as long as fewer than 2^32 entries were added to a collection; all ids whose hashes do not collide, all strings of less than 2^32 bytes, all amounts", "why_tests_cant": "unbounded histories, every byte of storage, all views", "anchors": ["meta-vote-contract/src/lib.rs: MetaVoteContract, new, all methods and views", "meta-vote-contract/src/voter.rs: Voter", "meta-vote-contract/src/constants.rs: StorageKey", "meta-vote-contract/src/migrate.rs: migrate"]}
{"id": "C93", "title": "The proposal contract, run on the bytes of its storage, does what the model with plain maps does", "statement": "Installed on storage that holds none of its entries, whatever calls are then made by whomever and however meta-vote answers: each call on the bytes is refused with the same message, or accepted with the same promises and the same effect, as the model in which votes, tallies, voters and proposals are plain maps; every view answers from the bytes what it answers there, for proposals and accounts that exist and for those that do not; no other entry of the storage is changed; a second installation is refused and nothing but an installation is accepted before. So every property proved of the model holds of the bytes: for example, the votes of a proposal can be listed, nobody is listed twice, the tallies are at least the sums of the listed votes, and every account sees the vote with which it is listed.", "quantifier": "every history of fewer than 2^30 calls and answers of meta-vote; all names of voters and numbers of proposals whose hashes do not collide, all strings of less than 2^32 bytes, all powers", "why_tests_cant": "unbounded histories, every byte of storage, all views", "anchors": ["mpip-contract/src/lib.rs: MpipContract, new, all methods and views", "mpip-contract/src/internal.rs", "mpip-contract/src/mpip.rs: Mpip", "mpip-contract/src/vote_counting.rs: ProposalVote", "mpip-contract/src/voter.rs: Voter", "mpip-contract/src/constants.rs"]}
{"id": "C94", "title": "The proposal contract and meta-vote understand each other: messages in JSON", "statement": "Between the two contracts as they are, with every call, argument and answer written and read as JSON: the positions and the total power that meta-vote returns are read by the proposal contract as exactly the positions and the total that the views of meta-vote show; what the proposal contract asks itself to do after the answer is read back as it was meant; so the power of every recorded vote is the locked power that meta-vote showed for that voter at some moment after the vote was asked, and every quorum is the share of a total that it showed.", "quantifier": "every joint history of the two contracts with calls given as a method name and any bytes; all accounts, powers and texts; answers that fail included", "why_tests_cant": "unbounded joint histories, all strings with escapes, all numbers", "anchors": ["mpip-contract/src/lib.rs: create_proposal, start_voting_period, vote_proposal, create_proposal_callback, start_voting_period_callback, vote_proposal_callback", "mpip-contract/src/types.rs: LockingPositionJSON", "meta-vote-contract/src/types.rs: LockingPositionJSON", "meta-vote-contract/src/lib.rs: get_all_locking_positions, get_total_voting_power"]}
{"id": "C95", "title": "Meta-vote and the tokens understand each other: payments and deposits in JSON", "statement": "A payment that meta-vote makes is read by the token as a transfer of that amount to that receiver, and refused if the receiver cannot be an account; the callback of a payment is read back as written. A transfer-call reaches meta-vote with the same sender, amount and message, and the answer to an accepted deposit is read as nothing unused. A decimal number as message locks for the sender and that many days; the message [voter, days] of the owner locks for that voter and those days, and the same message of anybody else is refused; a distribution written in JSON is distributed exactly as listed.", "quantifier": "every reachable state, payment, account, amount and message; every list of claims", "why_tests_cant": "all strings and numbers, all states", "anchors": ["meta-vote-contract/src/deposit.rs: ft_on_transfer", "meta-vote-contract/src/internal.rs: transfer_mpdao_with_callback, transfer_claimable_stnear", "meta-vote-contract/src/lib.rs: after_transfer_mpdao_callback, after_transfer_stnear_callback", "test-meta-token/src/lib.rs: ft_transfer, ft_transfer_call, ft_resolve_transfer"]}
{"id": "C96", "title": "Methods called by name with JSON input", "statement": "For each of the four contracts: every call with arguments of its types can be written as JSON and is read as it was written; whatever bytes are sent, what reaches a method has arguments in the range of their types and account ids that can exist, and the method is the one named; the order in which arguments are written does not matter. A history of meta-vote in which calls are names and bytes is a history of the model, so everything proved of the model holds of it.", "quantifier": "all calls, all bytes, all histories", "why_tests_cant": "unbounded inputs", "anchors": ["meta-vote-contract/src/lib.rs: all methods", "mpip-contract/src/lib.rs: all methods", "test-meta-token/src/lib.rs: all methods", "kv-store-contract/src/lib.rs: all methods"]}
{"id": "C97", "title": "Tokens are held only for ids that can be accounts", "statement": "Owner, operator and both token contracts are always ids that can be accounts; every payment goes to an id that can be an account; and whatever is held or owed is held or owed for an id that can be an account or mirrors an EVM address, so that somebody can take it.", "quantifier": "every history of calls given as names and bytes, made by accounts that can exist, with payments that succeed or fail", "why_tests_cant": "unbounded histories, all ids", "anchors": ["meta-vote-contract/src/deposit.rs: ft_on_transfer, deposit_locking_position, distribute_for_claims", "meta-vote-contract/src/lib.rs: new, set_operator_id, set_owner_id, set_stnear_contract, migration_create_lps"]}
{"id": "C98", "title": "Views asked and answered in JSON", "statement": "For each of the four contracts, a client that writes the arguments of a view in JSON, in any order, and reads the answer as JSON learns exactly the value of the view, or is refused exactly when the view refuses; whatever bytes are sent, an answer is the value of the named view for some arguments in the range of their types. In particular every number, date, text and list that any history produces fits the type in which the view writes it.", "quantifier": "all views, all arguments, all bytes, all reachable states with fewer than 2^64 records in a table", "why_tests_cant": "unbounded inputs and histories, all strings with escapes, all integers up to 128 bits", "anchors": ["meta-vote-contract/src/lib.rs: all views", "meta-vote-contract/src/types.rs: VoterJSON, LockingPositionJSON, VotePositionJSON, VotableObjectJSON, ContractInfoJson", "mpip-contract/src/lib.rs: all views", "test-meta-token/src/lib.rs: all views", "kv-store-contract/src/lib.rs: all views"]}
{"id": "C99", "title": "From JSON to storage and back", "statement": "Each contract as it is deployed, with every call a method name and input bytes, state in the bytes of its storage, callbacks in the bytes that the contract itself wrote, and views answered in bytes: whatever is sent, what happens is a history of the calls that the inputs are read as, an input that is not read changes nothing, and a client that asks any view in JSON is told exactly what that history says, or is refused with the same message.", "quantifier": "all names and inputs shorter than 2^31 bytes, in any order and number within what the storage format can count, by accounts that can exist and over names whose storage keys do not collide, with promises that succeed, fail or answer any bytes", "why_tests_cant": "unbounded histories of unbounded inputs on unbounded storage", "anchors": ["meta-vote-contract/src/lib.rs: all methods and views", "mpip-contract/src/lib.rs: all methods and views", "test-meta-token/src/lib.rs: all methods and views", "kv-store-contract/src/lib.rs: all methods and views"]}
{"id": "C100", "title": "The JSON interface is the one in the signatures", "statement": "Each method and view is called by its name with a JSON object that has the arguments of its Rust signature under their names: integers as decimal numbers, U64, U128 and NearToken as decimal strings, accounts as valid account ids, options as null or left out, in any order and among any other members. Every input accepted is a call of that form, every message between the contracts has that form, and every answer is the JSON value with the field names and types of the structure returned.", "quantifier": "all methods and views of the four contracts, all inputs, all values in the range of their types", "why_tests_cant": "unbounded inputs, all integers and texts; clients rely on names and types that no Rust test mentions", "anchors": ["meta-vote-contract/src/lib.rs: all signatures", "meta-vote-contract/src/types.rs: LockingPositionJSON, VotableObjectJSON, VotePositionJSON", "meta-vote-contract/src/voter.rs: VoterJSON", "meta-vote-contract/src/view.rs: ContractInfoJson", "mpip-contract/src/lib.rs: all signatures", "kv-store-contract/src/lib.rs: all signatures", "test-meta-token/src/lib.rs: all signatures"]}
{"id": "C101", "title": "Inputs and messages are exactly JSON", "statement": "What the methods accept as JSON is exactly what the grammar of JSON (RFC 8259) derives, nested at most 127 levels: white space, escapes, surrogate pairs, numbers with fraction and exponent; a text has one value; everything written is such a text. The message of a transfer that meta-vote accepts is exactly a JSON list of [account, amount] after for-claims:, or a JSON pair [account, days] from the owner, or a number of days in digits.", "quantifier": "all byte strings, all values, all transfers", "why_tests_cant": "unbounded texts, all strings and escapes", "anchors": ["meta-vote-contract/src/deposit.rs: ft_on_transfer, distribute_for_claims", "meta-vote-contract/src/lib.rs: all methods", "mpip-contract/src/lib.rs: all methods", "kv-store-contract/src/lib.rs: all methods", "test-meta-token/src/lib.rs: all methods"]}
{"id": "C102", "title": "The votes of a voter are theirs alone", "statement": "Take a voter who never votes with power zero and such that no other account that votes has a name which is the voter's name followed by - and more, or the other way round. Whatever everybody else does, the votes shown for this voter are exactly those they or their delegate gave: votes added, unvotes to zero, rebalances to the new value (after a mirroring by the operator: at most that). Their list of votes is complete, without repetition and sorted; available power plus votes never exceeds the power of the locked positions; an accepted voting call of theirs moves power between the available power and the votes for one object and touches no other vote of theirs; no call of anybody else changes their votes.", "quantifier": "every execution of any length over the storage of the vote maps, with no condition on the other voters and apps (who may vote with power zero, leave and come back, and share vote maps among themselves)", "why_tests_cant": "unbounded histories of all other accounts, all names; the vote maps of different voters live in one key space", "anchors": ["meta-vote-contract/src/lib.rs: vote, unvote, rebalance", "meta-vote-contract/src/evm_delegate.rs: vote_delegated, unvote_delegated", "meta-vote-contract/src/view.rs: get_votes_for_object, get_votes_by_voter, get_used_voting_power", "meta-vote-contract/src/voter.rs: Voter"]}
{"id": "C103", "title": "Account ids that are kept are valid", "statement": "Whatever is sent in JSON to any of the four contracts, the state in storage can be read back and every account id in it is valid: owner, operator and token contracts of meta-vote; admin, operator and contracts of mpip, the creators of its proposals and the voters it lists; owner and operator of the key-value store; owner and minters of the token. So a contract never becomes unusable because an id it stored is refused when it is read.", "quantifier": "every history of names and inputs of any length, accepted or not, with promises that fail, succeed or answer any bytes", "why_tests_cant": "unbounded histories of unbounded inputs; an id is checked when a call is read and may be checked again when the state is read", "anchors": ["meta-vote-contract/src/lib.rs: MetaVoteContract, new, set_owner_id, set_operator_id, set_stnear_contract", "mpip-contract/src/lib.rs: MpipContract, create_proposal_callback, vote_proposal_callback", "kv-store-contract/src/lib.rs: set_owner_id, set_operator_id", "test-meta-token/src/lib.rs: set_owner_id, add_minter"]}
{"id": "C104", "title": "Votes, quorums and proposals come from what meta-vote showed", "statement": "Mpip and meta-vote as deployed side by side, every call and message JSON, every state bytes. If a client of mpip is told a vote of an account, that account called vote_proposal with this choice and memo, and after that call and before now meta-vote would have told anybody positions of the account whose locked power is the power of the vote. If a client is told a quorum, it is the share that mpip showed when the answer came of the total power that meta-vote showed after the voting period was asked to start. If a client is told a proposal, meta-vote showed, after the call that created it, locked power of the caller of at least the threshold that mpip showed when the answer came. This holds for each call made while mpip named that meta-vote contract, whatever its administration does before and after.", "quantifier": "every interleaving of any length of calls of both contracts, payments, questions, answers and failures between them, with JSON inputs shorter than 2^31 bytes, within what the storage formats can count and over names whose storage keys do not collide", "why_tests_cant": "unbounded interleavings across two contracts; the answers travel while both contracts go on", "anchors": ["mpip-contract/src/lib.rs: create_proposal, create_proposal_callback, start_voting_period, start_voting_period_callback, vote_proposal, vote_proposal_callback, get_my_vote, get_proposal", "mpip-contract/src/interface.rs: MetaVote", "meta-vote-contract/src/view.rs: get_all_locking_positions, get_total_voting_power"]}
{"id": "C105", "title": "What clients are told is covered by what the tokens hold", "statement": "Meta-vote and its two tokens as deployed side by side, every call and message JSON, every state bytes. At any time the balance of mpDAO that the token tells for meta-vote covers the sum of the balances, locked and unlocking amounts that meta-vote tells for any set of voters (who are not mirrored from another chain), the unclaimed mpDAO it tells and every payment and deposit on its way, and an exact account of the difference can be given; the balance of stNEAR is exactly the unclaimed stNEAR told, what is on its way and gifts. A payment of meta-vote is accepted by the token if and only if the receiver is a registered account other than meta-vote and the amount is not zero: never for lack of funds. When the token settles a transfer-call to meta-vote it takes back all of it if meta-vote panicked and nothing otherwise. No callback of a payment fails.", "quantifier": "every interleaving of any length of JSON calls of meta-vote and both tokens, notifications, answers of any receivers, refunds, payments, failures and callbacks, within what the storage formats can count and over names whose storage keys do not collide; mpDAO credited by a migration is sent before, the stNEAR token is not replaced, the tokens call meta-vote only by transfer-calls, and the key of meta-vote is not used to call them", "why_tests_cant": "unbounded interleavings across three contracts and their receipts, on bytes", "anchors": ["meta-vote-contract/src/deposit.rs: ft_on_transfer", "meta-vote-contract/src/withdraw.rs: transfer_mpdao_to_voter, transfer_stnear_to_voter", "meta-vote-contract/src/view.rs: get_balance, get_locked_balance, get_unlocking_balance, get_total_unclaimed_mpdao, get_contract_info", "test-meta-token/src/lib.rs: ft_transfer, ft_transfer_call, ft_resolve_transfer, ft_balance_of, storage_balance_of"]}
{"id": "C106", "title": "An account that spends nothing loses nothing", "statement": "Meta-vote and its two tokens side by side. What an account that is not mirrored from another chain has in mpDAO is its balance of the token, what meta-vote holds for it (balance, locked, unlocking), what it may claim, the payments to it on their way or failed and not yet given back, and its own deposits on their way or refused and not yet returned. No step lowers this sum, whoever makes it and whatever call of meta-vote it is, except: the account itself transfers, burns or closes at the token (its deposits for itself do not count), the token takes back what the account as receiver of a transfer-call did not use, or meta-vote refused a deposit of an account that closed its token account meanwhile. So an account that does none of these never has less than before. The same holds of the amounts that clients are told in JSON, with every call and message JSON and every state bytes.", "quantifier": "every interleaving of any length of calls of meta-vote and both tokens by anybody, notifications, refunds, payments, failures and callbacks; every account other than meta-vote that is not mirrored from another chain; mpDAO credited by a migration is sent before and the stNEAR token is not replaced", "why_tests_cant": "a statement about one account over unbounded interleavings of three contracts, most steps of which others make", "anchors": ["meta-vote-contract/src/deposit.rs: ft_on_transfer", "meta-vote-contract/src/withdraw.rs: transfer_mpdao_to_voter, after_transfer_mpdao_callback", "meta-vote-contract/src/lib.rs: unlock_position", "meta-vote-contract/src/withdraw.rs: withdraw", "test-meta-token/src/lib.rs: ft_transfer, ft_transfer_call, ft_resolve_transfer, ft_burn, storage_unregister"]}
{"id": "C107", "title": "An account that spends no stNEAR loses none", "statement": "Meta-vote and its two tokens side by side. What an account that is not mirrored from another chain has in stNEAR is its balance of the token, what it may claim of meta-vote, the payments of its claims on their way or failed and not yet given back, and what it sent to meta-vote that was refused and not yet returned. No step lowers this sum, whoever makes it, except: the account itself transfers, burns or closes at the token, the token takes back what the account as receiver of a transfer-call did not use, or meta-vote refused stNEAR of an account that closed its token account meanwhile. The same holds of the amounts that clients are told in JSON, with every call and message JSON and every state bytes.", "quantifier": "every interleaving of any length of calls of meta-vote and both tokens by anybody, notifications, refunds, payments, failures and callbacks; every account other than meta-vote that is not mirrored from another chain; the stNEAR token is not replaced", "why_tests_cant": "a statement about one account over unbounded interleavings of three contracts, most steps of which others make", "anchors": ["meta-vote-contract/src/lib.rs: claim_stnear", "meta-vote-contract/src/evm_delegate.rs: delegated_claim_stnear", "meta-vote-contract/src/withdraw.rs: transfer_stnear_to_voter, after_transfer_stnear_callback", "meta-vote-contract/src/deposit.rs: ft_on_transfer", "test-meta-token/src/lib.rs: ft_transfer, ft_transfer_call, ft_resolve_transfer, ft_burn, storage_unregister"]}
{"id": "C108", "title": "A payment arrives in full or is given back in full", "statement": "Every transfer of mpDAO or stNEAR that meta-vote sends (a withdrawal or a claim) ends in one of two ways. If the token accepts it, the balance that the token answers for meta-vote falls by exactly its amount, the balance of the receiver grows by exactly that, the balance of everyone else is what it was, and the callback gives nothing back. If it fails (the token panics or the gas runs out), the callback can always run, and then get_balance of the voter that withdrew, or get_claimable_stnear of the account whose claim it was, is greater by exactly its amount, and for every other account both answers are what they were.", "quantifier": "every reachable state of meta-vote and its two tokens, with any number of transfers, transfer-calls and callbacks in flight, every payment, every outcome, every account asked for; as states of the model and as JSON answers read from bytes", "why_tests_cant": "The payment, its execution by another contract and the callback run in three different receipts with any other calls in between, and the claim is about all of them together; a unit test runs one contract with a mocked promise result.", "anchors": ["meta-vote-contract/src/withdraw.rs: transfer_mpdao_to_voter, after_transfer_mpdao_callback, restore_transfer_to_mpdao, transfer_stnear_to_voter, after_transfer_stnear_callback", "meta-vote-contract/src/view.rs: get_balance, get_claimable_stnear", "test-meta-token/src/lib.rs: ft_transfer, ft_balance_of"]}
{"id": "C109", "title": "Every call changes what an account is told to have by exactly what it brings and pays", "statement": "Take any call that meta-vote accepts, of any method by anybody, and any account that is not mirrored from another chain. The sum of get_balance, get_locked_balance, get_unlocking_balance and get_claimable_mpdao of the account, asked at any time before the call and at any time after it, changes by exactly the mpDAO that the call brings for the account (a deposit of which it is the beneficiary, its lines in a for-claims message times 10^6, a migration) minus the mpDAO of the transfers to it that the call sends. get_claimable_stnear changes by exactly its lines in a for-claims message of stNEAR minus the transfers from its claim. In particular locking, relocking, unlocking, voting, delegating, calls by the owner or the operator and the passing of time move nothing in or out, and a deposit is credited in full to its beneficiary and to nobody else.", "quantifier": "every reachable state of meta-vote and its two tokens, every accepted call with any arguments, every account, any two times of asking; as states of the model and as JSON answers read from bytes", "why_tests_cant": "It is one equation for all methods, all accounts and all times of asking, on the answers that clients get; a unit test fixes one method and a few accounts.", "anchors": ["meta-vote-contract/src/lib.rs: withdraw, withdraw_all, claim_stnear, claim_and_lock, unlock_position, relock_position, relock_from_balance, vote, unvote", "meta-vote-contract/src/deposit.rs: ft_on_transfer", "meta-vote-contract/src/view.rs: get_balance, get_locked_balance, get_unlocking_balance, get_claimable_mpdao, get_claimable_stnear"]}
