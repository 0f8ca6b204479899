{"id": "C01", "title": "Exact mint amount", "statement": "A successful Stake of a ORCA units mints exactly a xORCA when the xORCA supply S or the non-escrowed vault balance N (vault balance minus escrowed amount, both before the call) is zero, and exactly floor(a*(S+100)/(N+100)) otherwise.", "quantifier": "all account contents, all ledgers, all stake amounts for which Stake succeeds", "why_tests_cant": "the amount is a function of three 64-bit inputs read from raw account bytes; tests sample a few", "anchors": ["solana-program/src/instructions/stake.rs:process_instruction", "solana-program/src/util/math.rs:convert_orca_to_xorca"]}
{"id": "C02", "title": "Exact redemption amount", "statement": "A successful Unstake of x xORCA units sets aside exactly floor(x*(N+100)/(S+100)) ORCA, where N and S are the non-escrowed vault balance and the supply before the call.", "quantifier": "all ledgers and amounts for which Unstake succeeds", "why_tests_cant": "same: sampled inputs cannot cover the arithmetic", "anchors": ["solana-program/src/instructions/unstake.rs:process_instruction", "solana-program/src/util/math.rs:convert_xorca_to_orca"]}
{"id": "C03", "title": "Conversions never overflow silently", "statement": "Both on-chain conversions either return the mathematically exact floor value or ArithmeticError; they return ArithmeticError exactly when the exact value does not fit in a u64, the product of amount and offset pool side does not fit in a u128, or (for redemption) supply or non-escrowed balance is zero. No intermediate value wraps. No such error is possible for a backed pool (S at most N), with xORCA in it where xORCA is redeemed, as long as the ORCA staked and in the pool together stay below 2^64 - 100 and no more than the supply is redeemed; with all values at 2^64 - 1 both conversions report it (witness).", "quantifier": "all triples of u64", "why_tests_cant": "2^192 inputs; the u128 head-room argument is arithmetic, not sampled", "anchors": ["solana-program/src/util/math.rs:convert_orca_to_xorca", "solana-program/src/util/math.rs:convert_xorca_to_orca"]}
{"id": "C04", "title": "Stake then unstake never profits", "statement": "Staking a and immediately redeeming everything minted yields at most a ORCA whenever the supply is non-zero or the pool is empty; when the supply is zero it yields at most a plus the ownerless non-escrowed balance that was already in the vault. (That the second case can really profit is shown by a witness.)", "quantifier": "all pool states and stake amounts", "why_tests_cant": "rounding direction must be right for every ratio", "anchors": ["solana-program/src/util/math.rs:convert_orca_to_xorca", "solana-program/src/util/math.rs:convert_xorca_to_orca", "solana-program/src/instructions/stake.rs:process_instruction", "solana-program/src/instructions/unstake.rs:process_instruction"]}
{"id": "C05", "title": "Unstake then restake never profits", "statement": "Redeeming x xORCA and immediately restaking the ORCA obtained mints at most x xORCA, as long as other xORCA remains. (A holder who redeems the whole supply restarts the pool one to one and may get more units; shown by a witness.)", "quantifier": "all pool states with a non-zero supply and non-escrowed balance remaining, all amounts", "why_tests_cant": "rounding direction for every ratio", "anchors": ["solana-program/src/util/math.rs:convert_orca_to_xorca", "solana-program/src/util/math.rs:convert_xorca_to_orca"]}
{"id": "C06", "title": "Splitting a stake never pays", "statement": "Staking a then b mints in total at most what staking a+b at once mints; the same holds for any number of parts with anything in between but donations, Unstakes and a Stake into a pool that has ORCA and no xORCA.", "quantifier": "all pool states that are not unbacked (non-zero supply against zero ORCA), all a and b", "why_tests_cant": "needs a proof over nested floors", "anchors": ["solana-program/src/util/math.rs:convert_orca_to_xorca", "solana-program/src/instructions/stake.rs:process_instruction"]}
{"id": "C07", "title": "Splitting an unstake never pays", "statement": "Redeeming x then y pays in total at most what redeeming x+y at once pays; the same holds for any number of parts.", "quantifier": "all pool states, all x and y", "why_tests_cant": "needs a proof over nested floors", "anchors": ["solana-program/src/util/math.rs:convert_xorca_to_orca", "solana-program/src/instructions/unstake.rs:process_instruction"]}
{"id": "C08", "title": "Conversions are monotone and lose less than one unit", "statement": "Larger inputs give outputs that are at least as large, and the floor loses strictly less than one unit of output against the exact virtual-offset ratio.", "quantifier": "all pool states and input amounts", "why_tests_cant": "universally quantified inequality", "anchors": ["solana-program/src/util/math.rs:convert_orca_to_xorca", "solana-program/src/util/math.rs:convert_xorca_to_orca"]}
{"id": "C09", "title": "No dilution of holders", "statement": "Along any history in which the supply stays non-zero, the virtual price (N+100)/(S+100) never decreases, so the ORCA a holder would obtain for a fixed x never decreases, whatever stakes, unstakes, withdrawals, sets, donations and burns others perform.", "quantifier": "all histories of instructions and environment actions of any length", "why_tests_cant": "unbounded interleavings", "anchors": ["solana-program/src/instructions/stake.rs:process_instruction", "solana-program/src/instructions/unstake.rs:process_instruction", "solana-program/src/instructions/withdraw.rs:process_instruction", "solana-program/src/instructions/set.rs:process_instruction"]}
{"id": "C10", "title": "Donation attack on an empty pool does not pay", "statement": "An attacker who stakes first into an empty pool, donates any d to the vault, lets one victim stake any v, and redeems everything, obtains at most what they put in (their stake plus d).", "quantifier": "all attacker stakes, donations and victim stakes", "why_tests_cant": "the known ERC-4626 inflation attack has an unbounded search space", "anchors": ["solana-program/src/util/math.rs:convert_orca_to_xorca", "solana-program/src/util/math.rs:convert_xorca_to_orca"]}
{"id": "C11", "title": "Solvency", "statement": "In every reachable state the vault's ORCA balance is at least the escrowed amount, so every pending withdrawal can be paid.", "quantifier": "all histories from genesis with arbitrary instructions, accounts and environment steps", "why_tests_cant": "inductive invariant over unbounded histories", "anchors": ["solana-program/src/instructions/stake.rs:process_instruction", "solana-program/src/instructions/unstake.rs:process_instruction", "solana-program/src/instructions/withdraw.rs:process_instruction", "solana-program/src/state/state.rs:State"]}
{"id": "C12", "title": "Escrow equals the sum of open withdrawals", "statement": "In every reachable initialised state the escrowed amount equals the sum of withdrawable amounts over all open pending-withdraw records.", "quantifier": "all histories from genesis", "why_tests_cant": "inductive invariant over an unbounded set of records", "anchors": ["solana-program/src/instructions/unstake.rs:process_instruction", "solana-program/src/instructions/withdraw.rs:process_instruction", "solana-program/src/state/pending_withdraw.rs:PendingWithdraw"]}
{"id": "C13", "title": "Every xORCA is backed by at least one ORCA", "statement": "In every reachable state the non-escrowed vault balance is at least the xORCA supply; hence Stake never mints more xORCA than ORCA deposited and Unstake of x always sets aside at least x.", "quantifier": "all histories from genesis", "why_tests_cant": "inductive invariant; relies on floor directions everywhere", "anchors": ["solana-program/src/instructions/stake.rs:process_instruction", "solana-program/src/instructions/unstake.rs:process_instruction", "solana-program/src/instructions/withdraw.rs:process_instruction"]}
{"id": "C14", "title": "Withdraw pays exactly the recorded amount", "statement": "A successful Withdraw moves exactly the recorded amount from the vault to the given ORCA account, lowers the escrow by the same amount, and destroys the record; supply, cool-down, authority and bumps are unchanged.", "quantifier": "all ledgers and account lists for which Withdraw succeeds", "why_tests_cant": "whole post-state is described, for arbitrary raw bytes", "anchors": ["solana-program/src/instructions/withdraw.rs:process_instruction", "solana-program/src/util/account.rs:close_program_account"]}
{"id": "C15", "title": "Unstake has exactly its documented effect", "statement": "A successful Unstake burns exactly x from the caller's xORCA account and the supply, raises the escrow by the redemption amount, leaves the vault balance unchanged and creates one record with owner, index, amount and maturity time now + cool-down.", "quantifier": "all ledgers and account lists for which Unstake succeeds", "why_tests_cant": "whole post-state is described, for arbitrary raw bytes", "anchors": ["solana-program/src/instructions/unstake.rs:process_instruction", "solana-program/src/util/account.rs:create_program_account_secure"]}
{"id": "C16", "title": "Stake has exactly its documented effect", "statement": "A successful Stake moves exactly a from a token account owned by the signer to the vault and mints to a xORCA account owned by the signer; escrow, cool-down and authority are unchanged.", "quantifier": "all ledgers and account lists for which Stake succeeds", "why_tests_cant": "whole post-state is described, for arbitrary raw bytes", "anchors": ["solana-program/src/instructions/stake.rs:process_instruction"]}
{"id": "C17", "title": "Cool-down is enforced", "statement": "Every successful Withdraw of a record happens at a time at least the time of the Unstake that created the record plus the cool-down in force at that Unstake.", "quantifier": "all histories, all clocks", "why_tests_cant": "relates two events arbitrarily far apart in a history", "anchors": ["solana-program/src/instructions/unstake.rs:process_instruction", "solana-program/src/instructions/withdraw.rs:process_instruction"]}
{"id": "C18", "title": "Open records are immutable", "statement": "Between its creation and its withdrawal a record's owner, amount, index and maturity time never change, whatever instructions are executed, in particular under Set of the cool-down period.", "quantifier": "all histories", "why_tests_cant": "unbounded interleavings", "anchors": ["solana-program/src/instructions/unstake.rs:process_instruction", "solana-program/src/instructions/withdraw.rs:process_instruction", "solana-program/src/instructions/set.rs:process_instruction"]}
{"id": "C19", "title": "No double withdrawal", "statement": "Each record pays at most once: after a successful Withdraw the same record cannot be withdrawn again unless a new successful Unstake re-creates it.", "quantifier": "all histories", "why_tests_cant": "unbounded interleavings including lamport revival of the closed account", "anchors": ["solana-program/src/instructions/withdraw.rs:process_instruction", "solana-program/src/util/account.rs:close_program_account"]}
{"id": "C20", "title": "Only the unstaker is paid", "statement": "A successful Withdraw is signed by the key that performed the Unstake that created the record, and the ORCA is credited to a token account whose token owner is that key.", "quantifier": "all histories, all account lists", "why_tests_cant": "adversarial account substitution is unbounded", "anchors": ["solana-program/src/instructions/withdraw.rs:process_instruction", "solana-program/src/pda.rs", "solana-program/src/state/pending_withdraw.rs:verify_address_with_bump"]}
{"id": "C21", "title": "Matured withdrawals cannot be blocked", "statement": "In every reachable state a matured record can be withdrawn: a Withdraw by its owner with well-formed accounts succeeds regardless of anything other users, the update authority or donors did.", "quantifier": "all histories, all matured records", "why_tests_cant": "liveness over all reachable states", "anchors": ["solana-program/src/instructions/withdraw.rs:process_instruction"]}
{"id": "C22", "title": "Prefunding cannot block an Unstake", "statement": "Lamports sent in advance to the pending-withdraw address do not make the creation of the record fail; the record is created with the same contents and at least the rent-exempt balance.", "quantifier": "all prefunded lamport balances", "why_tests_cant": "needs all balances incl. above rent minimum", "anchors": ["solana-program/src/instructions/unstake.rs:process_instruction", "solana-program/src/util/account.rs:create_account_secure"]}
{"id": "C23", "title": "Only the update authority changes settings", "statement": "A successful Set is signed by the current update authority and changes only the one requested field (cool-down period or update authority) of the state account.", "quantifier": "all ledgers, account lists and arguments", "why_tests_cant": "frame condition over the entire ledger", "anchors": ["solana-program/src/instructions/set.rs:process_instruction"]}
{"id": "C24", "title": "Cool-down period is never negative", "statement": "In every reachable initialised state the cool-down period is non-negative, so a maturity time is never before its Unstake.", "quantifier": "all histories", "why_tests_cant": "inductive invariant", "anchors": ["solana-program/src/instructions/initialize.rs:process_instruction", "solana-program/src/instructions/set.rs:process_instruction"]}
{"id": "C25", "title": "Only the deployer initialises, with the requested values", "statement": "A successful Initialize is signed by the fixed deployer key and the given update authority, and writes exactly the requested cool-down, authority, bumps, zero escrow and zero padding.", "quantifier": "all ledgers, account lists and arguments", "why_tests_cant": "whole post-state is described", "anchors": ["solana-program/src/instructions/initialize.rs:process_instruction"]}
{"id": "C26", "title": "The pool is initialised at most once", "statement": "In every history at most one Initialize succeeds; the state account is never closed, resized or re-initialised.", "quantifier": "all histories", "why_tests_cant": "unbounded interleavings", "anchors": ["solana-program/src/instructions/initialize.rs:process_instruction", "solana-program/src/state/mod.rs:AccountDiscriminator"]}
{"id": "C27", "title": "Initialize accepts only a fresh, safe xORCA mint", "statement": "A successful Initialize implies the xORCA mint has zero supply, six decimals, mint authority equal to the state account and no freeze authority.", "quantifier": "all mint account bytes", "why_tests_cant": "arbitrary account bytes", "anchors": ["solana-program/src/instructions/initialize.rs:process_instruction"]}
{"id": "C28", "title": "Dust is rejected, not swallowed", "statement": "Stake fails with InsufficientStakeAmount exactly when the mint amount would round to zero, and Unstake with InsufficientUnstakeAmount exactly when the redemption rounds to zero; no tokens move in these cases and a successful call always gives a positive amount.", "quantifier": "all ledgers passing the earlier checks", "why_tests_cant": "universally quantified", "anchors": ["solana-program/src/instructions/stake.rs:process_instruction", "solana-program/src/instructions/unstake.rs:process_instruction"]}
{"id": "C29", "title": "Events report the real post-state", "statement": "The vault balance, escrow, supply, amounts, cool-down and index in the emitted event equal the values found in the accounts after the instruction.", "quantifier": "all successful executions", "why_tests_cant": "events are computed from stale copies; equality must hold for every execution", "anchors": ["solana-program/src/instructions/stake.rs:process_instruction", "solana-program/src/instructions/unstake.rs:process_instruction", "solana-program/src/instructions/withdraw.rs:process_instruction", "solana-program/src/instructions/set.rs:process_instruction", "solana-program/src/event.rs:Event"]}
{"id": "C30", "title": "Client instruction bytes decode to the intended instruction", "statement": "For every instruction and every argument the bytes built by the client decode on chain to the same instruction with the same arguments, and no two different instructions share an encoding.", "quantifier": "all instructions and argument values", "why_tests_cant": "round trip over all 64-bit and 256-bit arguments", "anchors": ["solana-program/src/instructions/mod.rs:Instruction", "rust-client/src/generated/instructions"]}
{"id": "C31", "title": "Event bytes decode to the emitted event", "statement": "For every event the serialised log bytes decode in the clients to the same event.", "quantifier": "all events", "why_tests_cant": "round trip over all field values", "anchors": ["solana-program/src/event.rs:Event", "js-client/src/generated"]}
{"id": "C32", "title": "Clients read what the program stored", "statement": "The client (Borsh) decoding of a State or PendingWithdraw account agrees field by field with the program's in-place (repr(C)) view of the same bytes, and re-encoding gives the bytes back.", "quantifier": "all byte contents of valid length", "why_tests_cant": "layout equality for all byte strings", "anchors": ["solana-program/src/state/state.rs:State", "solana-program/src/state/pending_withdraw.rs:PendingWithdraw", "rust-client/src/generated/accounts"]}
{"id": "C33", "title": "Token conservation", "statement": "No instruction creates or destroys ORCA: the sum of ORCA balances over all token accounts is unchanged; and the change of the sum of xORCA balances equals the change of the supply.", "quantifier": "all executions, all finite sets of accounts", "why_tests_cant": "sum over an arbitrary set of accounts", "anchors": ["solana-program/src/instructions/stake.rs:process_instruction", "solana-program/src/instructions/unstake.rs:process_instruction", "solana-program/src/instructions/withdraw.rs:process_instruction"]}
{"id": "C34", "title": "Bystanders are untouched", "statement": "An instruction changes only the accounts named in its role list; any other account, in particular other users' records and token accounts, keeps lamports, owner and data.", "quantifier": "all executions, all other accounts", "why_tests_cant": "frame condition over the entire ledger", "anchors": ["solana-program/src/instructions/stake.rs:process_instruction", "solana-program/src/instructions/unstake.rs:process_instruction", "solana-program/src/instructions/withdraw.rs:process_instruction", "solana-program/src/instructions/set.rs:process_instruction", "solana-program/src/instructions/initialize.rs:process_instruction"]}
{"id": "C35", "title": "Lamports are conserved and rent is refunded", "statement": "The sum of lamports over all accounts is unchanged by every instruction, and Withdraw credits the full lamport balance of the record to the unstaker.", "quantifier": "all executions", "why_tests_cant": "sum over an arbitrary set of accounts; the code adds lamports with wrapping arithmetic", "anchors": ["solana-program/src/instructions/withdraw.rs:process_instruction", "solana-program/src/instructions/unstake.rs:process_instruction", "solana-program/src/instructions/initialize.rs:process_instruction", "solana-program/src/util/account.rs"]}
{"id": "C36", "title": "Forged state accounts are rejected", "statement": "In every reachable state, any successful Stake, Unstake, Withdraw or Set used the one canonical state account created by Initialize.", "quantifier": "all histories, all account lists", "why_tests_cant": "adversarial account substitution; the bump used for checking comes from account data", "anchors": ["solana-program/src/state/state.rs:verify_address_with_bump", "solana-program/src/assertions/account.rs"]}
{"id": "C37", "title": "Forged vaults are rejected", "statement": "In every reachable state, any successful Stake, Unstake or Withdraw used the canonical vault (the state account's associated ORCA token account), whose token owner is the state account and whose mint is ORCA.", "quantifier": "all histories, all account lists", "why_tests_cant": "adversarial account substitution", "anchors": ["solana-program/src/state/state.rs:verify_vault_address_with_bump", "solana-program/src/assertions/account.rs:make_owner_token_account_assertions"]}
{"id": "C38", "title": "Derived addresses of different users do not clash by construction", "statement": "The byte strings hashed for pending-withdraw addresses of different (user, index) pairs, and for the state account, are different.", "quantifier": "all pairs of users, indices and bumps", "why_tests_cant": "injectivity over all keys", "anchors": ["solana-program/src/pda.rs", "solana-program/src/state/pending_withdraw.rs"]}
{"id": "C39", "title": "Rust client conversions equal the on-chain ones", "statement": "For all inputs the Rust client's two conversion functions return the same value as the program, and fail exactly when the program's conversion fails.", "quantifier": "all triples of u64", "why_tests_cant": "equality of two implementations on 2^192 inputs", "anchors": ["rust-client/src/conversion.rs", "solana-program/src/util/math.rs:convert_orca_to_xorca", "solana-program/src/util/math.rs:convert_xorca_to_orca"]}
{"id": "C40", "title": "JS client conversions equal the on-chain ones", "statement": "For all u64 inputs for which the on-chain conversion succeeds the JS conversion returns the same value, and it throws for redemption exactly on zero supply or zero non-escrowed balance.", "quantifier": "all triples of u64", "why_tests_cant": "equality of two implementations in different languages", "anchors": ["js-client/src/utils/conversion.ts", "solana-program/src/util/math.rs:convert_orca_to_xorca", "solana-program/src/util/math.rs:convert_xorca_to_orca"]}
{"id": "C41", "title": "Clients list every open withdrawal", "statement": "Fetching a user's pending withdrawals with the maximum search bound returns every open record of that user. (False for index 255; shown by a witness, proved for indices below the bound.)", "quantifier": "all ledgers, users, bounds and indices", "why_tests_cant": "quantifies over all record sets", "anchors": ["rust-client/src/utils/mod.rs:fetch_pending_withdraws_for_staker", "js-client/src/utils/index.ts:fetchPendingWithdrawsForStaker", "solana-program/src/instructions/unstake.rs:process_instruction"]}
{"id": "C42", "title": "Client exchange rate is the on-chain price inputs", "statement": "The exchange-rate helper returns exactly the supply and non-escrowed balance the program would use on the same ledger.", "quantifier": "all ledgers", "why_tests_cant": "all account bytes", "anchors": ["rust-client/src/utils/mod.rs:fetch_staking_exchange_rate"]}
{"id": "C43", "title": "Error codes agree", "statement": "Every program error has the same numeric code in the clients and no two errors share a code.", "quantifier": "all error codes (finite, complete)", "why_tests_cant": "exhaustive agreement of two tables", "anchors": ["solana-program/src/error.rs", "rust-client/src/generated/errors/xorca_staking_program.rs", "js-client/src/generated/errors/xorcaStakingProgram.ts"]}
{"id": "C44", "title": "Supply and vault move only through the right instructions", "statement": "The xORCA supply increases only in Stake, the vault's ORCA decreases only in Withdraw, and the authority and cool-down change only in Set after initialisation.", "quantifier": "all instructions, ledgers, account lists", "why_tests_cant": "frame over all instructions", "anchors": ["solana-program/src/instructions/stake.rs:process_instruction", "solana-program/src/instructions/unstake.rs:process_instruction", "solana-program/src/instructions/withdraw.rs:process_instruction", "solana-program/src/instructions/set.rs:process_instruction"]}
{"id": "C45", "title": "Flow accounting", "statement": "Over any history the escrow equals the total set aside by successful Unstakes minus the total paid by successful Withdraws, and the total paid never exceeds total staked plus donations.", "quantifier": "all histories", "why_tests_cant": "sums over unbounded histories", "anchors": ["solana-program/src/instructions/stake.rs:process_instruction", "solana-program/src/instructions/unstake.rs:process_instruction", "solana-program/src/instructions/withdraw.rs:process_instruction"]}
{"id": "C46", "title": "Client account lists satisfy the program's role checks", "statement": "The account order, signer and writable flags of the generated instruction builders satisfy every role check of the program, so an instruction built with correct keys is never rejected for InvalidAccountRole or NotEnoughAccountKeys.", "quantifier": "all keys and arguments", "why_tests_cant": "all inputs to the builder", "anchors": ["rust-client/src/generated/instructions", "solana-program/src/instructions/mod.rs"]}
{"id": "C47", "title": "Stake succeeds when it should", "statement": "In every reachable state a Stake with well-formed accounts, sufficient balance and a non-zero, representable result succeeds.", "quantifier": "all reachable states, all users and amounts", "why_tests_cant": "liveness over all reachable states", "anchors": ["solana-program/src/instructions/stake.rs:process_instruction"]}
{"id": "C48", "title": "Unstake succeeds when it should", "statement": "In every reachable state an Unstake of a positive amount with well-formed accounts, sufficient xORCA, a free index, rent and no overflow of the clock or of the 128-bit product succeeds.", "quantifier": "all reachable states, all users and amounts", "why_tests_cant": "liveness over all reachable states", "anchors": ["solana-program/src/instructions/unstake.rs:process_instruction"]}
{"id": "C49", "title": "Defensive errors are unreachable", "statement": "In reachable states no instruction fails with InsufficientVaultBacking or InsufficientEscrow, and the addition to the escrow fits for every amount up to the supply; arithmetic errors, clock errors and an active cool-down are reported in no other than the intended cases.", "quantifier": "all histories, all instructions", "why_tests_cant": "absence over all reachable states", "anchors": ["solana-program/src/instructions/stake.rs:process_instruction", "solana-program/src/instructions/unstake.rs:process_instruction", "solana-program/src/instructions/withdraw.rs:process_instruction"]}
{"id": "C50", "title": "An index holds at most one open record", "statement": "Unstake with an index whose record is still open fails and changes nothing, and after the record is withdrawn the index can be used again.", "quantifier": "all ledgers", "why_tests_cant": "all prior states", "anchors": ["solana-program/src/instructions/unstake.rs:process_instruction", "solana-program/src/util/account.rs:create_account_secure"]}
{"id": "C51", "title": "Malformed calls are rejected with the documented error", "statement": "A wrong program id, undecodable instruction data, or too few accounts are rejected with IncorrectProgramId, UnknownInstructionDiscriminator and NotEnoughAccountKeys respectively.", "quantifier": "all instruction bytes and account lists", "why_tests_cant": "all byte strings", "anchors": ["solana-program/src/entrypoint.rs:process_instruction", "solana-program/src/util/account.rs:get_account_info"]}
{"id": "C52", "title": "No panic", "statement": "No input makes the program panic (out-of-range slice, division by zero), provided a valid bump exists for the derived addresses it searches.", "quantifier": "all inputs and ledgers", "why_tests_cant": "absence over all inputs", "anchors": ["solana-program/src/entrypoint.rs"]}
{"id": "C53", "title": "Authority rotation is immediate", "statement": "After UpdateUpdateAuthority succeeds the old authority's Set fails and the new authority's Set is accepted.", "quantifier": "all ledgers and keys", "why_tests_cant": "all keys", "anchors": ["solana-program/src/instructions/set.rs:process_instruction"]}
{"id": "C54", "title": "Each instruction returns only its own error codes", "statement": "Every custom error an instruction returns is one of the six common account-checking errors or one of the few listed for that instruction; for example Withdraw never reports an arithmetic error and Set never reports insufficient funds.", "quantifier": "all instructions, ledgers, account lists and contexts", "why_tests_cant": "exhaustive over all failure paths", "anchors": ["solana-program/src/error.rs", "solana-program/src/instructions/stake.rs:process_instruction", "solana-program/src/instructions/unstake.rs:process_instruction", "solana-program/src/instructions/withdraw.rs:process_instruction", "solana-program/src/instructions/set.rs:process_instruction"]}
{"id": "C55", "title": "Initialize succeeds when it should", "statement": "On a chain whose xORCA mint is fresh and handed to the state address and whose state and vault addresses are still unused, Initialize by the deployer with a non-negative cool-down succeeds, whatever lamports anyone has sent to those two addresses beforehand, provided the payer can pay the rent.", "quantifier": "all ledgers, contexts, cool-down values and lamport amounts", "why_tests_cant": "liveness over all ledgers; includes pre-funded addresses", "anchors": ["solana-program/src/instructions/initialize.rs:process_instruction", "solana-program/src/util/account.rs:create_account_secure", "solana-program/src/cpi/mod.rs"]}
{"id": "C56", "title": "A vault created early blocks Initialize forever", "statement": "If the vault's associated token account exists before Initialize has run, no instruction of the program ever succeeds afterwards, whatever anyone does; and anyone with rent for one token account can bring this about.", "quantifier": "all reachable uninitialised ledgers and all continuations", "why_tests_cant": "impossibility over all continuations", "anchors": ["solana-program/src/instructions/initialize.rs:process_instruction"]}
{"id": "C57", "title": "The declared account table is enforced", "statement": "Each of the five instructions succeeds only if every account declared for it in the instruction enum is present, carries the declared signer and writable flags, has the declared fixed address and belongs to the declared program; and the clients' generated account lists set exactly those flags.", "quantifier": "all instructions, account lists and ledgers", "why_tests_cant": "a missing check on any one account of any instruction is only visible with an adversarial account", "anchors": ["solana-program/src/instructions/mod.rs:Instruction", "solana-program/src/assertions/account.rs", "rust-client/src/generated/instructions"]}
{"id": "C58", "title": "Exact acceptance conditions", "statement": "In reachable states, for token accounts that are well-formed, each instruction succeeds if and only if a short list of conditions on addresses, signers, balances, time and rent holds: nothing else is required and nothing is missing.", "quantifier": "all reachable states, all account lists and arguments", "why_tests_cant": "an equivalence over all inputs: shows both that no check is missing and that no check is superfluous", "anchors": ["solana-program/src/instructions/stake.rs:process_instruction", "solana-program/src/instructions/unstake.rs:process_instruction", "solana-program/src/instructions/withdraw.rs:process_instruction", "solana-program/src/instructions/set.rs:process_instruction", "solana-program/src/instructions/initialize.rs:process_instruction"]}
{"id": "C59", "title": "Quotes are exact, and stale quotes err in the known direction", "statement": "The amount the client computes from one consistent read of the ledger is exactly what a Stake or Unstake executed on that ledger gives. Whatever happens between the quote and the execution, except a Stake into a pool whose supply had gone to zero while ORCA was left in it, an Unstake gives at least the quoted amount and a Stake at most the quoted amount.", "quantifier": "all reachable states, all amounts, all histories between quote and execution", "why_tests_cant": "relates two implementations across arbitrary intermediate histories", "anchors": ["rust-client/src/utils/mod.rs:fetch_staking_exchange_rate", "rust-client/src/conversion.rs", "solana-program/src/instructions/stake.rs:process_instruction", "solana-program/src/instructions/unstake.rs:process_instruction"]}
{"id": "C60", "title": "Record addresses hold records or nothing", "statement": "If nobody but the program can create accounts at the program's derived addresses, then the record address of a user and an index is blank or holds that user's open record with that index, everything a client lists for a user is an open record of that user, and every index without an open record can be used by Unstake; each time up to an explicitly named SHA-256 collision.", "quantifier": "all histories, users and indices", "why_tests_cant": "the clients do not check the account owner when listing; soundness is a property of all histories", "anchors": ["rust-client/src/utils/mod.rs:fetch_pending_withdraws_for_staker", "js-client/src/utils/index.ts:fetchPendingWithdrawsForStaker", "solana-program/src/instructions/unstake.rs:process_instruction", "solana-program/src/util/account.rs:create_account_secure"]}
{"id": "C61", "title": "When the Rust listing fails, and that others can make it fail", "statement": "The Rust client's listing of pending withdrawals fails exactly when some account below the search bound exists and does not decode as a record. Anyone can bring this about for any user with an unused index by sending lamports to its address; the JS listing is not affected.", "quantifier": "all ledgers, users and bounds", "why_tests_cant": "an exact failure condition over all ledgers, and an attack", "anchors": ["rust-client/src/utils/mod.rs:fetch_pending_withdraws_for_staker", "js-client/src/utils/index.ts:fetchPendingWithdrawsForStaker"]}
{"id": "C62", "title": "The exchange rate may mix three ledgers", "statement": "The exchange-rate helper reads state, vault and mint in three calls. If they see three successive ledgers the result equals each figure at its own time; the mixed figures can describe a price that never existed (witness).", "quantifier": "all triples of successive reachable ledgers", "why_tests_cant": "races between reads and transactions", "anchors": ["rust-client/src/utils/mod.rs:fetch_staking_exchange_rate"]}
{"id": "C63", "title": "All holders are covered at once", "statement": "If the token program keeps the books of xORCA in order (accounts together hold at most the supply) then so does this program, and the vault covers the redemption of all xORCA in any set of accounts and all open records at the same time, and any holder can unstake any part of their balance without a further condition on the supply.", "quantifier": "all histories, all finite sets of accounts and records", "why_tests_cant": "sums over arbitrary sets of holders after arbitrary histories", "anchors": ["solana-program/src/instructions/stake.rs:process_instruction", "solana-program/src/instructions/unstake.rs:process_instruction", "solana-program/src/instructions/withdraw.rs:process_instruction", "solana-program/src/util/math.rs:convert_xorca_to_orca"]}
{"id": "C64", "title": "No coalition profits", "statement": "Along any path without a Stake into an ownerless pool, if the others hold some fixed amount of xORCA at both ends, then what the remaining xORCA is worth at the end plus all ORCA set aside on the way is at most all ORCA staked and donated on the way plus what the remaining xORCA was worth at the start. In particular nobody who starts without xORCA gets more out than was put in, and a pool with no more ORCA has no more xORCA.", "quantifier": "all paths, all interleavings of any number of users", "why_tests_cant": "covers every strategy of any group of users, not only the known attack patterns", "anchors": ["solana-program/src/instructions/stake.rs:process_instruction", "solana-program/src/instructions/unstake.rs:process_instruction", "solana-program/src/instructions/withdraw.rs:process_instruction", "solana-program/src/util/math.rs:convert_orca_to_xorca", "solana-program/src/util/math.rs:convert_xorca_to_orca"]}
{"id": "C65", "title": "A staker loses at most dust", "statement": "Who stakes and later, whatever others do in between (except staking into a pool without xORCA), unstakes exactly what was minted, gets back the deposit less than the price of one unit of xORCA plus one unit of ORCA short; the first staker loses nothing.", "quantifier": "all reachable states, all amounts, all intermediate histories", "why_tests_cant": "lower bound over arbitrary intermediate histories", "anchors": ["solana-program/src/instructions/stake.rs:process_instruction", "solana-program/src/instructions/unstake.rs:process_instruction", "solana-program/src/util/math.rs:convert_orca_to_xorca", "solana-program/src/util/math.rs:convert_xorca_to_orca"]}
{"id": "C66", "title": "Every check is made in every ledger", "statement": "A successful call of each instruction has passed every listed check on roles, addresses, owners, lengths, discriminators, stored bumps, token owners and mints, mint authorities, balances and times, in any ledger whatsoever, including unreachable ones where some of these checks are the only protection.", "quantifier": "all ledgers (no reachability assumed), all account lists, contexts and arguments", "why_tests_cant": "a dropped check that is redundant in reachable states is invisible to every history-based test", "anchors": ["solana-program/src/instructions/stake.rs:process_instruction", "solana-program/src/instructions/unstake.rs:process_instruction", "solana-program/src/instructions/withdraw.rs:process_instruction", "solana-program/src/instructions/set.rs:process_instruction", "solana-program/src/instructions/initialize.rs:process_instruction", "solana-program/src/assertions/account.rs"]}
{"id": "C67", "title": "Command-line scripts send exactly what was asked", "statement": "What stake.ts, unstake.ts, withdraw.ts, set.ts and initialize.ts send decodes to the intended instruction with exactly the requested amount, index, cool-down or key, with the addresses of the pool and of the user's associated accounts in the right order and with the right flags; the amount never exceeds the balance that was read, an account is created exactly if missing, and in any reachable ledger in which the user's accounts are in order the program accepts the call.", "quantifier": "all ledgers read, all ledgers at execution, all users and arguments", "why_tests_cant": "hand-written byte layouts and account lists against the program's decoder, for all arguments", "anchors": ["ts-scripts/stake.ts", "ts-scripts/unstake.ts", "ts-scripts/withdraw.ts", "ts-scripts/set.ts", "ts-scripts/initialize.ts", "ts-scripts/constants.ts"]}
{"id": "C68", "title": "The rates printed by status.ts are swapped", "statement": "On any reachable ledger with supply and backing the rate printed as 1 xORCA = r ORCA is the number of xORCA that one ORCA buys and the rate printed as 1 ORCA = r xORCA is the number of ORCA that one xORCA redeems for; the labels as printed are right exactly if supply and backing are equal (witness that they are wrong).", "quantifier": "all reachable ledgers, all amounts", "why_tests_cant": "relates printed figures to the exact conversion for all amounts", "anchors": ["ts-scripts/status.ts", "solana-program/src/util/math.rs:convert_orca_to_xorca", "solana-program/src/util/math.rs:convert_xorca_to_orca"]}
{"id": "C69", "title": "What pending-withdraws.ts shows and misses", "statement": "Each row shown is an open record of the user with an index below 15 with its amount and time, every such record has a row, and ready means that the program accepts the time. Records with larger indices are never shown, and the creation time shown is right exactly if the cool-down has not changed since (witness for both).", "quantifier": "all histories, users and clocks", "why_tests_cant": "completeness and soundness over all record sets and histories", "anchors": ["ts-scripts/pending-withdraws.ts", "solana-program/src/instructions/unstake.rs:process_instruction", "solana-program/src/instructions/set.rs:process_instruction"]}
{"id": "C70", "title": "Number arguments of the scripts", "statement": "The decimal text of an index or cool-down up to 2^53 is sent as that number and indices out of range are refused; but an index that is not a number silently means index 0 and a larger cool-down is silently rounded (witness). The seconds remaining printed by withdraw.ts are positive exactly if the record has not matured, and the error code it looks for is that of an active cool-down only.", "quantifier": "all texts, numbers, ledgers and clocks", "why_tests_cant": "JavaScript number parsing and rounding over all inputs", "anchors": ["ts-scripts/unstake.ts", "ts-scripts/withdraw.ts", "ts-scripts/set.ts", "ts-scripts/initialize.ts", "solana-program/src/error.rs"]}
{"id": "C71", "title": "The price rises by rounding only", "statement": "A single call raises the price of xORCA by at most the factor that rounding allows: (backing'+100)(supply+100) is at most (backing+100)(supply'+101). Along any path on which others neither donate nor burn and the supply stays at least m, k Stakes and Unstakes raise it by at most the factor ((m+101)/(m+100))^k and nothing else raises it.", "quantifier": "all reachable states, all paths of any length", "why_tests_cant": "an upper bound over unbounded sequences of calls of any users", "anchors": ["solana-program/src/util/math.rs:convert_orca_to_xorca", "solana-program/src/util/math.rs:convert_xorca_to_orca", "solana-program/src/instructions/stake.rs:process_instruction", "solana-program/src/instructions/unstake.rs:process_instruction"]}
{"id": "C72", "title": "Donation attack against any number of victims", "statement": "An attacker stakes a into an empty pool and donates d, then k victims stake any amounts, then the attacker unstakes everything. The payout is at most a(a+d+100)/(a+100) times (a+101+k)/(a+101), and at most a+d if k(a+d) is at most 100d. The condition on k cannot be dropped: a concrete attack against two victims earns one unit (witness).", "quantifier": "all reachable states, all amounts, any number of victims", "why_tests_cant": "multi-step attack with unboundedly many victims", "anchors": ["solana-program/src/util/math.rs:convert_orca_to_xorca", "solana-program/src/instructions/stake.rs:process_instruction", "solana-program/src/instructions/unstake.rs:process_instruction"]}
{"id": "C73", "title": "The program refines an abstract pool", "statement": "Every history of the program, with arbitrary steps of others, is step by step a run of a small abstract machine over five figures (supply, backing, cool-down, authority, open requests): each call follows the rule of its instruction and others can only give ORCA and burn xORCA.", "quantifier": "all histories", "why_tests_cant": "refinement over all histories", "anchors": ["solana-program/src/instructions/stake.rs:process_instruction", "solana-program/src/instructions/unstake.rs:process_instruction", "solana-program/src/instructions/withdraw.rs:process_instruction", "solana-program/src/instructions/set.rs:process_instruction", "solana-program/src/instructions/initialize.rs:process_instruction"]}
{"id": "C74", "title": "No account has two roles", "statement": "In every successful call, with the ORCA mint a well-formed mint, the state, vault, record, token accounts and mints passed are pairwise different, and the signer is not the state or the record; so no account is written through two roles.", "quantifier": "all ledgers, all account lists", "why_tests_cant": "all aliasing patterns of account lists", "anchors": ["solana-program/src/instructions/stake.rs:process_instruction", "solana-program/src/instructions/unstake.rs:process_instruction", "solana-program/src/instructions/withdraw.rs:process_instruction", "solana-program/src/instructions/set.rs:process_instruction", "solana-program/src/instructions/initialize.rs:process_instruction"]}
{"id": "C75", "title": "What a very long cool-down stops", "statement": "In every reachable state with a positive clock the authority can set a cool-down so long that no Unstake succeeds until there is another Set, whatever else happens; Stake and Withdraw of open requests are not affected (example).", "quantifier": "all reachable states, all continuations without a Set", "why_tests_cant": "impossibility over all continuations", "anchors": ["solana-program/src/instructions/set.rs:process_instruction", "solana-program/src/instructions/unstake.rs:process_instruction"]}
{"id": "C76", "title": "A user has at most 256 requests, all of their own making", "statement": "A user has at most 256 open requests; with all indices in use every Unstake of that user fails; and every open request of a user was made by an Unstake that the user signed, so nobody else can use up a user's indices.", "quantifier": "all histories, users and indices", "why_tests_cant": "counting over all histories", "anchors": ["solana-program/src/instructions/unstake.rs:process_instruction", "solana-program/src/state/pending_withdraw.rs"]}
{"id": "C77", "title": "Whatever others do is an environment step", "statement": "Every instruction of the SPL token program (all of them, with delegates, multisigs, close authorities, native accounts and freezing) that the pool has not signed, anything another program may do under the ownership rule of the runtime, and the removal of empty accounts satisfies the assumptions made about others: the state and the records are untouched, the vault can only receive, xORCA can only be burnt, its authorities stay, and the token accounts never hold more xORCA than the supply.", "quantifier": "all ledgers in which the token program has kept its rules, all instructions and signers", "why_tests_cant": "replaces an assumption of all history theorems by a proof over the whole instruction set of another program", "anchors": ["solana-program/src/instructions/stake.rs:process_instruction", "solana-program/src/instructions/unstake.rs:process_instruction", "solana-program/src/instructions/withdraw.rs:process_instruction", "solana-program/src/instructions/initialize.rs:process_instruction"]}
{"id": "C78", "title": "Solvency and price without assumptions about others", "statement": "From any chain on which the xORCA mint exists and the program has not run, any sequence of calls of the program, token program instructions, steps of other programs and account removals leads to ledgers in which the vault covers what all xORCA holders together could redeem plus all pending withdrawals; and the price of xORCA never falls except by a stake into a pool without xORCA.", "quantifier": "all sequences of steps of the whole chain", "why_tests_cant": "end-to-end statement over the whole chain", "anchors": ["solana-program/src/instructions/stake.rs:process_instruction", "solana-program/src/instructions/unstake.rs:process_instruction", "solana-program/src/instructions/withdraw.rs:process_instruction", "solana-program/src/instructions/set.rs:process_instruction", "solana-program/src/instructions/initialize.rs:process_instruction", "solana-program/src/util/math.rs:convert_orca_to_xorca", "solana-program/src/util/math.rs:convert_xorca_to_orca"]}
{"id": "C79", "title": "The program's token calls are instructions of the full token program", "statement": "The transfer, mint and burn operations used in the model of the program's calls give the same ledger as the corresponding instructions of the full token program model whenever they succeed.", "quantifier": "all ledgers, accounts and amounts", "why_tests_cant": "consistency of two models of the same external program", "anchors": ["solana-program/src/instructions/stake.rs:process_instruction", "solana-program/src/instructions/unstake.rs:process_instruction", "solana-program/src/instructions/withdraw.rs:process_instruction"]}
{"id": "C80", "title": "The mint hand-over script", "statement": "update-xorca-mint-authority.ts sends one SetAuthority signed by the given authority: if that is the mint authority of xORCA the instruction succeeds, the state address becomes the mint authority and nothing else changes, the report is right, and an untouched mint is then as Initialize wants it. It cannot be undone: with no freeze authority the state address stays the mint authority through every sequence of calls and steps of others, initialised or not.", "quantifier": "all ledgers, signers and all continuations of the whole chain", "why_tests_cant": "irreversibility over all continuations", "anchors": ["ts-scripts/update-xorca-mint-authority.ts", "solana-program/src/instructions/initialize.rs:process_instruction"]}
{"id": "C81", "title": "A blocked deployment takes the mint with it", "statement": "If the mint has been handed over but the program is not initialised and the vault account exists already, no xORCA is ever minted and the mint never gets another authority, whatever anyone does; anyone with rent for one token account can bring this about between the two scripts.", "quantifier": "all reachable uninitialised ledgers and all continuations", "why_tests_cant": "impossibility over all continuations", "anchors": ["ts-scripts/update-xorca-mint-authority.ts", "solana-program/src/instructions/initialize.rs:process_instruction"]}
{"id": "C82", "title": "The donation script", "statement": "transfer-orca-to-vault.ts sends one transfer of the parsed amount from the sender's associated account to the vault, succeeds when the accounts are in order, and when executed raises vault and backing by exactly that amount, with supply, escrow and all other accounts unchanged, so no redemption value falls. The amount text is exact up to 2^53 and silently misread otherwise (witness). The printed figure Vault received is twice the amount sent (witness).", "quantifier": "all ledgers, senders and texts", "why_tests_cant": "exact effect for all ledgers; a wrong printed figure", "anchors": ["ts-scripts/transfer-orca-to-vault.ts", "solana-program/src/util/math.rs:convert_xorca_to_orca"]}
{"id": "C83", "title": "The transfer script", "statement": "transfer-orca.ts sends one transfer between associated accounts, creates the recipient's account exactly if missing, moves exactly the amount, and its report of success is right between different accounts; a transfer to oneself succeeds but is reported as failed (witness). The recipient is never the state address.", "quantifier": "all ledgers, senders, recipients and amounts", "why_tests_cant": "all aliasing cases", "anchors": ["ts-scripts/transfer-orca.ts"]}
{"id": "C84", "title": "Key files from text", "statement": "generate-keypair.ts takes 64 or 128 hexadecimal digits as the key bytes; after 64 digits everything from the first other character on is ignored, so a mistyped longer key is taken for a shorter one; the example in its own usage text is refused.", "quantifier": "all texts", "why_tests_cant": "all texts", "anchors": ["ts-scripts/generate-keypair.ts"]}
{"id": "C85", "title": "The event log tells the state of the pool", "statement": "An indexer that starts with the authority named in Initialize and reads every event ever logged knows the escrow, the authority and the number of open requests exactly, the supply from above and the vault from below; right after a Stake or Unstake, or if nobody gives ORCA or burns xORCA outside the program, also supply and vault exactly, and so the price. The amounts in the events add up to the escrow and, but for gifts, to the vault. The cool-down is not in the log (witness), but every Unstake and Withdraw event reports the one in force.", "quantifier": "all histories with arbitrary steps of others", "why_tests_cant": "an invariant relating an unbounded event log to the ledger", "anchors": ["solana-program/src/event.rs", "solana-program/src/instructions/stake.rs:process_instruction", "solana-program/src/instructions/unstake.rs:process_instruction", "solana-program/src/instructions/withdraw.rs:process_instruction", "solana-program/src/instructions/set.rs:process_instruction", "solana-program/src/instructions/initialize.rs:process_instruction"]}
{"id": "C86", "title": "How far the program's README is right", "statement": "Stake mints at least what the README's formula gives and exceeds it by less than one unit plus a*100*(n-s)/(n*(n+100)); Unstake sets aside at most the README's figure, short by less than one unit plus x*100*(n-s)/(s*(s+100)); at par both agree. They are wrong in general (witness). Initialize accepts any signing authority, not one built-in key, and Unstake does not need a writable vault.", "quantifier": "all reachable states, amounts and account lists", "why_tests_cant": "exact deviation over all states", "anchors": ["solana-program/README.md", "solana-program/src/util/math.rs:convert_orca_to_xorca", "solana-program/src/instructions/stake.rs:process_instruction", "solana-program/src/instructions/unstake.rs:process_instruction", "solana-program/src/instructions/initialize.rs:process_instruction"]}
{"id": "C87", "title": "Rent deposits", "statement": "An open record holds at all times at least the rent minimum for its size that was in force when it was made, the state keeps what it has for ever, and Initialize gives state and vault at least the minimum. A Withdraw hands over all lamports of the record, which are at least what the user paid in at the Unstake and what lay there before.", "quantifier": "all histories", "why_tests_cant": "lamport accounting over all histories", "anchors": ["solana-program/src/instructions/unstake.rs:process_instruction", "solana-program/src/instructions/withdraw.rs:process_instruction", "solana-program/src/instructions/initialize.rs:process_instruction", "solana-program/src/util/account.rs"]}
{"id": "C88", "title": "What an Unstake promises is kept", "statement": "After any successful Unstake in a reachable state, whatever follows: either the record has been paid, once matured, with exactly the amount due at the Unstake, to an ORCA account of the user that signed it (up to a SHA-256 clash); or the record is open and from its maturity on the user can withdraw exactly that amount to any usable ORCA account of theirs.", "quantifier": "all reachable states, all continuations", "why_tests_cant": "safety and availability over all continuations", "anchors": ["solana-program/src/instructions/unstake.rs:process_instruction", "solana-program/src/instructions/withdraw.rs:process_instruction"]}
{"id": "C89", "title": "JS instruction builders and parsers", "statement": "Identifying and parsing an instruction in JS gives from any bytes exactly what the program decodes, and throws exactly if the program cannot decode it or has too few accounts; every accepted call can be read back with the accounts the program used. Instructions built in JS are read back as built and have the published accounts and flags; a missing account is replaced by the program address, and the program refuses every such instruction. A parser on its own does not notice another instruction (witness).", "quantifier": "all byte strings, account lists and inputs", "why_tests_cant": "equivalence of two decoders on all byte strings", "anchors": ["js-client/src/generated/instructions/stake.ts", "js-client/src/generated/instructions/unstake.ts", "js-client/src/generated/instructions/withdraw.ts", "js-client/src/generated/instructions/initialize.ts", "js-client/src/generated/instructions/set.ts", "js-client/src/generated/shared/index.ts", "js-client/src/generated/programs/xorcaStakingProgram.ts"]}
{"id": "C90", "title": "Rust instruction builders", "statement": "A chain of setter calls builds the instruction with the last value given for each account and argument, in the published order with the published flags, then the remaining accounts in order, and panics exactly if a value was never given. The builders for calls from other programs exchange the writable and signer flag of remaining accounts, so that a call with a writable remaining account that the caller cannot sign for is refused; without remaining accounts the call needs just the rights of the published table.", "quantifier": "all sequences of setter calls, all callers", "why_tests_cant": "all call sequences of a builder", "anchors": ["rust-client/src/generated/instructions/stake.rs", "rust-client/src/generated/instructions/unstake.rs", "rust-client/src/generated/instructions/withdraw.rs", "rust-client/src/generated/instructions/initialize.rs", "rust-client/src/generated/instructions/set.rs"]}
{"id": "C91", "title": "A chain of transactions", "statement": "If the chain is a sequence of transactions, each of which pays a fee and then either takes full effect or none, then what it leaves behind is a history as in all other properties: a failed transaction changes only its payer's lamports, every call that counts lies in a transaction that succeeded, all holders together and all pending withdrawals are covered after every transaction, and those who act in one transaction get no more out of it than they put in and than their own xORCA was worth before (unless it stakes into a pool without xORCA).", "quantifier": "all chains of transactions of any make-up, failing or not", "why_tests_cant": "atomicity and fees over unbounded chains", "anchors": ["solana-program/src/entrypoint.rs", "solana-program/src/instructions/stake.rs:process_instruction", "solana-program/src/instructions/unstake.rs:process_instruction"]}
{"id": "C92", "title": "A call depends only on its accounts", "statement": "What a call does, whether it succeeds, what it logs and with what error it fails depend only on the accounts in its list, and it changes no other account; so whatever happens to other accounts can equally happen before or after it.", "quantifier": "all pairs of ledgers that agree on the listed accounts, all calls", "why_tests_cant": "a relation between two executions (non-interference)", "anchors": ["solana-program/src/instructions/stake.rs:process_instruction", "solana-program/src/instructions/unstake.rs:process_instruction", "solana-program/src/instructions/withdraw.rs:process_instruction", "solana-program/src/instructions/set.rs:process_instruction", "solana-program/src/instructions/initialize.rs:process_instruction", "solana-program/src/util/account.rs", "solana-program/src/assertions/account.rs"]}
{"id": "C93", "title": "Borrow checks and runtime rules never stop a call", "statement": "With pinocchio's borrow flags, the runtime's rules on a program's own writes, the partial view of called programs and the limit on account growth modelled, every call has exactly the same result as without them: no borrow fails, no write is refused, no lamports are out of balance. The checks themselves have effect: a call with a borrowed account is refused and so is a write to a foreign account, and without the bound on lamports the claim is false (witness).", "quantifier": "all ledgers, account lists (with any aliasing), contexts and arguments", "why_tests_cant": "all aliasing patterns and all control paths of the dynamic checks", "anchors": ["solana-program/src/instructions/stake.rs:process_instruction", "solana-program/src/instructions/unstake.rs:process_instruction", "solana-program/src/instructions/withdraw.rs:process_instruction", "solana-program/src/instructions/set.rs:process_instruction", "solana-program/src/instructions/initialize.rs:process_instruction", "solana-program/src/util/account.rs", "solana-program/src/assertions/account.rs"]}
{"id": "C94", "title": "Gifts are shared in proportion", "statement": "Between two moments with the same supply and no trade between, x xORCA gain x/(supply+100) of what was given to the vault, up to less than one unit. All who unstake in one state get the same price but for one unit. Who stakes before a gift and unstakes right after it gets the stake back and the same share of the gift as everybody else, however short the stake (witness: 300000 ORCA become 415375); the cool-down only delays the payment. Redeeming all xORCA leaves behind the offset's share 100*(backing-supply)/(supply+100), rounded up.", "quantifier": "all reachable states, gifts and amounts", "why_tests_cant": "rational bounds over all states and paths", "anchors": ["solana-program/src/instructions/stake.rs:process_instruction", "solana-program/src/instructions/unstake.rs:process_instruction", "solana-program/src/util/math.rs:convert_orca_to_xorca"]}
{"id": "C95", "title": "How far a quote can move", "statement": "Between a quote and the call, k trades of others, without gifts and burns, none of them a stake into a pool without xORCA, and with at least m xORCA in existence, move the ORCA due for x xORCA up by the factor ((m+101)/(m+100))^k at most, up to one unit, and never down; the xORCA minted for a stake falls by that factor at most and never rises. With 2k <= m+100 the rise is less than 2k/(m+100).", "quantifier": "all paths from reachable states", "why_tests_cant": "a bound over paths of any length", "anchors": ["solana-program/src/instructions/stake.rs:process_instruction", "solana-program/src/instructions/unstake.rs:process_instruction", "solana-program/src/util/math.rs:convert_orca_to_xorca"]}
{"id": "C96", "title": "The error table", "statement": "Every instruction makes a fixed list of checks in a fixed order, read off the source: the error it reports is that of the first check that fails, whatever else is wrong, before any other program is called. If all hold, the call fails only with an error of another program, or in Unstake, after the burn, with ArithmeticError or CoolDownOverflow exactly as listed. A call that succeeds has passed them all, and an error of the program's own names the first check that failed.", "quantifier": "all ledgers, account lists, instructions and contexts with any number of things wrong at once", "why_tests_cant": "precedence among all combinations of failures", "anchors": ["solana-program/src/instructions/stake.rs:process_instruction", "solana-program/src/instructions/unstake.rs:process_instruction", "solana-program/src/instructions/withdraw.rs:process_instruction", "solana-program/src/instructions/set.rs:process_instruction", "solana-program/src/instructions/initialize.rs:process_instruction", "solana-program/src/assertions/account.rs", "solana-program/src/error.rs"]}
{"id": "C97", "title": "Listing through a node with a limit", "statement": "Both clients look up all searched addresses in one call. Through a node that answers for at most n accounts per call the listing works as without a limit for bounds up to n and fails for larger ones, so a request with an index of n or more is never listed. With the limit 100 of the Solana RPC API there is a reachable ledger with an open request of index 200 that neither client lists with any bound (witness).", "quantifier": "all limits, bounds, users and ledgers", "why_tests_cant": "behaviour against any node, over all bounds; a witness on a concrete chain with the real hashes", "anchors": ["rust-client/src/utils/mod.rs", "js-client/src/utils/index.ts"]}
{"id": "C98", "title": "Account encoders, decoders and fetchers of the clients", "statement": "What the Borsh encoder of the Rust client writes for a state or a request is read back the same; the JS encoders write the same bytes whenever all numbers are in range (paddings and byte arrays are padded or cut to size) and throw otherwise. The fetch functions return exactly the decoded data of the accounts, in order, and fail exactly if one is missing or does not decode. They do not check the kind of an account: every state account decodes as a request, too, so the state of an initialised pool is fetched as a request without an error.", "quantifier": "all field values, byte strings, ledgers and key lists", "why_tests_cant": "round trips and equivalence of encoders on all inputs", "anchors": ["js-client/src/generated/accounts/state.ts", "js-client/src/generated/accounts/pendingWithdraw.ts", "rust-client/src/generated/accounts/state.rs", "rust-client/src/generated/accounts/pending_withdraw.rs"]}
{"id": "C99", "title": "The rent rule of the runtime", "statement": "The runtime refuses a transaction that leaves an account with some lamports but less than the rent minimum, unless it was so before and did not gain. Stake and Set never break this rule, and the others can break it only at their first account, the wallet that pays or receives. An Unstake keeps it if the wallet is left with the minimum or with nothing, a Withdraw if the record holds the minimum of a wallet, which it does in every history in which the minimum of a wallet now does not exceed what the minimum of a record has been.", "quantifier": "all ledgers, calls and rent rates", "why_tests_cant": "all lamport amounts at the boundary of the rule", "anchors": ["solana-program/src/instructions/unstake.rs:process_instruction", "solana-program/src/instructions/withdraw.rs:process_instruction", "solana-program/src/instructions/stake.rs:process_instruction", "solana-program/src/instructions/set.rs:process_instruction", "solana-program/src/instructions/initialize.rs:process_instruction", "solana-program/src/util/account.rs"]}
{"id": "C100", "title": "Everybody can leave", "statement": "In every reachable state any number of holders with usable accounts, free record addresses and xORCA can unstake one after another, in any order: no call fails, and the amount set aside for each, the last one included, is at least what the formula gave before the first call. Any number of matured requests can be withdrawn one after another, each paid in full. Together: if all unstake, the cool-down passes and all withdraw, everybody has at least the quote of the beginning more, the requests are gone and the escrow is as before.", "quantifier": "all reachable states, all groups of users, all orders", "why_tests_cant": "a run of calls of any length, success and amounts of every one", "anchors": ["solana-program/src/instructions/unstake.rs:process_instruction", "solana-program/src/instructions/withdraw.rs:process_instruction"]}
{"id": "C101", "title": "A Withdraw commutes with the calls of others", "statement": "If in a reachable state one user's Withdraw and another user's Stake, Unstake or Withdraw both succeed, then each succeeds after the other as well, and both orders end in one and the same ledger, byte for byte: no one can gain or lose by the place of a Withdraw. Two Stakes do not have this property: the order can move one unit of xORCA (witness).", "quantifier": "all reachable states, pairs of users and calls", "why_tests_cant": "equality of the results of two executions on all states", "anchors": ["solana-program/src/instructions/stake.rs:process_instruction", "solana-program/src/instructions/unstake.rs:process_instruction", "solana-program/src/instructions/withdraw.rs:process_instruction"]}
{"id": "C102", "title": "Type and instruction encoders of the clients", "statement": "The JS encoders of instruction data, events, mints and token accounts accept exactly the numbers that fit their fields and throw otherwise, never wrap; what they write is byte for byte what the Rust types write and the program reads back just these values. Mints and token accounts are read back as written and written back as read. The two decoders of a mint differ in one case only: if the initialisation byte is neither 0 nor 1, Rust refuses and JS reads an uninitialised mint, an account the token program does not accept as a mint.", "quantifier": "all integers of any size, all byte strings", "why_tests_cant": "round trips and equivalence of encoders on all inputs", "anchors": ["js-client/src/generated/types/event.ts", "js-client/src/generated/types/tokenMint.ts", "js-client/src/generated/types/tokenAccount.ts", "js-client/src/generated/types/stateUpdateInstruction.ts", "rust-client/src/generated/types/token_mint.rs", "rust-client/src/generated/types/token_account.rs", "js-client/src/generated/instructions/stake.ts"]}
{"id": "C103", "title": "Errors as the clients see them", "statement": "Program, Rust client and JS client have the same text for each error, all different, and the Rust client turns a number into an error exactly if it is that error's code. Provided the called programs use no numbers from 6000 on, isXorcaStakingProgramError with a code answers yes for a failed call of the program exactly if the program itself failed with that error, and then the first check that failed is the one of that code. Without a code it answers yes for numbered errors of called programs, too; for an instruction sent to another program that calls this one it always answers no.", "quantifier": "all failing calls, transactions and numbering of other programs' errors", "why_tests_cant": "all errors at every position of any transaction", "anchors": ["js-client/src/generated/errors/xorcaStakingProgram.ts", "rust-client/src/generated/errors/xorca_staking_program.rs", "solana-program/src/error.rs"]}
{"id": "C104", "title": "The order of calls hardly matters", "statement": "Any number of Withdraws, several of one user among them, succeed in every order or in none, and all orders end in one and the same ledger, byte for byte. What one and the same Unstake or Stake gives after two different sequences of trades, Withdraws and Sets of others (without gifts, burns and stakes into a pool without xORCA), for instance the same calls in two orders, differs by rounding only: by the factor ((m+101)/(m+100))^k at most, up to one unit, with k trades and at least m xORCA in existence.", "quantifier": "all reachable states, all sets of open requests and their permutations, all pairs of call sequences", "why_tests_cant": "permutations of any length; two executions compared on all states", "anchors": ["solana-program/src/instructions/stake.rs:process_instruction", "solana-program/src/instructions/unstake.rs:process_instruction", "solana-program/src/instructions/withdraw.rs:process_instruction", "solana-program/src/util/math.rs"]}
{"id": "C105", "title": "What an empty pool gives away", "statement": "When the last xORCA is unstaked, about 100/(supply+100) of what the pool earned stays in the vault, and whoever stakes next into the pool without xORCA and leaves again takes it, all but one unit with a stake of a hundred times as much. So a donation attack pays after all if the victim leaves as well (witness: with the attacker's 5 ORCA gift the victim loses 48019 of 98000 units and the attacker gains 47917). Who keeps out stakes of a has put more than 100(a-1) units into the pool that stay there unless someone stakes into an empty pool. The comment that the supply cannot become 0 again because a unit of xORCA went to the incinerator is wrong under the rules of the SPL token program: anybody can burn it.", "quantifier": "all reachable states, amounts and paths", "why_tests_cant": "bounds over all states and paths; a witness run of ten steps", "anchors": ["solana-program/src/util/math.rs", "solana-program/src/instructions/stake.rs:process_instruction", "solana-program/src/instructions/unstake.rs:process_instruction"]}
{"id": "C106", "title": "The audit report, before and after", "statement": "The functions quoted in the audit report, before their correction, have the reported defects: without the offset a first staker of one unit who donates d gains from every victim who stakes between d+3 and 2d+1 units, and keeps out all smaller stakes at no cost, where with the present conversions only stakes below about a hundredth of the pool are kept out and the one unit is redeemed for about a hundredth of the pool; the old creation of an account fails at every address with a lamport and is the same elsewhere; the old closing leaves an account of the program with its contents, the present one leaves nothing; the state address check that was missing in Unstake is implied by owner and tag.", "quantifier": "all amounts, donations, ledgers and addresses", "why_tests_cant": "the old attack for all parameters; comparison of two versions on all states", "anchors": ["solana-program/src/util/math.rs", "solana-program/src/util/account.rs", "solana-program/src/instructions/unstake.rs:process_instruction"]}
{"id": "C107", "title": "One unit held by the pool closes the gap", "statement": "If a token account for xORCA that belongs to the state address holds at least one unit, then no call ever changes that account and others can only add to it, so the supply stays positive and no stake ever meets a pool that has ORCA but no xORCA. From then on the price of xORCA never falls and no coalition takes out more than it put in and its xORCA was worth, whatever happens, without the exception that the general statements need.", "quantifier": "all histories of calls and of real steps of the token program and other programs", "why_tests_cant": "an invariant of all later histories, whoever acts", "anchors": ["solana-program/src/util/math.rs", "solana-program/src/instructions/stake.rs:process_instruction", "solana-program/src/instructions/unstake.rs:process_instruction"]}
{"id": "C108", "title": "Running at the same time changes nothing", "statement": "The Solana runtime runs transactions at the same time if none may write an account that another one lists. A call of the program keeps to its list: success, failure and everything it writes depend on the listed accounts alone, and no account is changed that is not listed as writable; so do several calls in one transaction. Hence a batch of transactions without conflicts, calls of the program among them, ends in the ledger of running them one after the other, in any order. Two successful calls of the program always conflict, since all but Stake lock the state account for writing and two Stakes share the xORCA mint, so the program is never run twice at the same time.", "quantifier": "all batches of transactions, all orders, all calls from reachable states", "why_tests_cant": "interleavings of any number of transactions", "anchors": ["solana-program/src/instructions/stake.rs:process_instruction", "solana-program/src/instructions/unstake.rs:process_instruction", "solana-program/src/instructions/withdraw.rs:process_instruction", "solana-program/src/instructions/set.rs:process_instruction", "solana-program/src/instructions/initialize.rs:process_instruction"]}
{"id": "C109", "title": "Who can freeze what", "statement": "A token account gets frozen only by an instruction of the token program signed by the freeze authority of its mint, never by a call of this program. A mint without a freeze authority never gets one, so from Initialize on no xORCA account can ever be frozen, and if the ORCA mint has no freeze authority the vault is never frozen and the owner of a matured request can always withdraw it, without any assumption on the vault. A frozen vault stops every Stake and every Withdraw. Initialize checks the freeze authority of the xORCA mint only: with an ORCA mint that has one, the vault can be frozen, Unstake still burns xORCA, and the request cannot be paid until the vault is thawed, after which it is paid in full (witness).", "quantifier": "all sequences of calls of the program, of the token program and of other programs", "why_tests_cant": "an invariant over everything the token program can do; a witness run of seven steps", "anchors": ["solana-program/src/instructions/initialize.rs:process_instruction", "solana-program/src/instructions/stake.rs:process_instruction", "solana-program/src/instructions/unstake.rs:process_instruction", "solana-program/src/instructions/withdraw.rs:process_instruction"]}
{"id": "C110", "title": "What of its surroundings a call looks at", "statement": "Besides the accounts a call sees hashes, a curve test, the clock and the rent rate. Stake computes two hashes and tests one point, Set computes one hash, and both look neither at the clock nor at the rent rate; Withdraw computes three hashes, and of the clock it matters only whether the record is due; Unstake computes two hashes and those of the search for the record, one for each bump from 255 down to the one found, and looks at the clock and the rent of 1024 bytes; Initialize computes those of two searches and looks at the rent of its two accounts, not at the clock. In any other surroundings that agree on just these, every call does the same, success or failure. All of it is needed: a successful Stake, Set or Withdraw does the same elsewhere exactly if these agree, and for Unstake and Initialize the searches end at the same bumps.", "quantifier": "all calls, ledgers, hash functions, clocks and rent rates", "why_tests_cant": "two executions compared on all surroundings", "anchors": ["solana-program/src/instructions/stake.rs:process_instruction", "solana-program/src/instructions/unstake.rs:process_instruction", "solana-program/src/instructions/withdraw.rs:process_instruction", "solana-program/src/instructions/set.rs:process_instruction", "solana-program/src/instructions/initialize.rs:process_instruction"]}
{"id": "C111", "title": "What the runtime hands over and takes back", "statement": "The runtime passes accounts and arguments to the program as one block of memory, in which an account listed twice is written once, and the program's account pointers point into it. What the program reads from the block is what was put into it: every account of the list, up to 254, in order, with key, flags, owner, lamports and data, the instruction data and the program id; two entries are the same account in memory exactly if they have the same key. A write through one pointer, with up to 10240 bytes of growth, is not seen through that of another account. No call makes an account longer than 2048 bytes that was not, so the room for growth always suffices. Writing the block, reading it, running the call, writing the accounts back and reading them again has exactly the outcome of the call on the ledger, success or failure.", "quantifier": "all account lists (with repetitions), ledgers, instruction data and calls", "why_tests_cant": "a round trip over all lists and contents; positions depend on all lengths", "anchors": ["solana-program/src/entrypoint.rs:process_instruction", "solana-program/src/instructions/stake.rs:process_instruction", "solana-program/src/instructions/unstake.rs:process_instruction", "solana-program/src/instructions/withdraw.rs:process_instruction", "solana-program/src/instructions/set.rs:process_instruction", "solana-program/src/instructions/initialize.rs:process_instruction"]}
{"id": "C112", "title": "To make others lose costs a hundred times as much", "statement": "An attacker who holds some of the xORCA gives ORCA to the vault, a victim stakes, the attacker leaves, and later, whatever has happened in between (except a stake into a pool without xORCA), the victim leaves, too. Then 99 times what the victim has lost is at most what the attack has cost, up to 100 units and 100 times the price of xORCA before the attack. The factor is sharp: there is a case in which the cost is less than 101 times the loss.", "quantifier": "all reachable states, holdings, gifts, stakes and continuations", "why_tests_cant": "a bound over all amounts and paths", "anchors": ["solana-program/src/util/math.rs:convert_orca_to_xorca", "solana-program/src/instructions/stake.rs:process_instruction", "solana-program/src/instructions/unstake.rs:process_instruction"]}
{"id": "C113", "title": "What a call asks of the runtime", "statement": "Every call, successful or not, computes at most 3 (Stake), 260 (Unstake), 4 (Withdraw), 1 (Set), 768 (Initialize) hashes for derived addresses and calls other programs only in a fixed order, at most 2, 4, 1, 0 and 4 times; a call that is not understood does neither. A successful Stake, Withdraw or Set always makes the same hashes and calls; Unstake and Initialize make those of their searches, one for each bump from 255 down, and lamports sent ahead to the new account cost one or two calls of the system program more and nothing else. A failing call logs no event, a successful one logs its events as the very last thing. Once another program has been called, no instruction can fail with an error of the program's own, except Unstake with ArithmeticError or CoolDownOverflow.", "quantifier": "all calls, ledgers, account lists and contexts, successful or failing", "why_tests_cant": "a bound on all executions; the order of effects on every path", "anchors": ["solana-program/src/instructions/stake.rs:process_instruction", "solana-program/src/instructions/unstake.rs:process_instruction", "solana-program/src/instructions/withdraw.rs:process_instruction", "solana-program/src/instructions/set.rs:process_instruction", "solana-program/src/instructions/initialize.rs:process_instruction", "solana-program/src/util/account.rs", "solana-program/src/event.rs", "solana-program/src/assertions/account.rs"]}
{"id": "C114", "title": "Which figures a pool can have", "statement": "With the real hash function and curve, a supply s, an amount n of ORCA not set aside and an escrow e occur together in some initialised pool that can be reached exactly if s is at most n and n + e is below 2^64. This is so already if the history consists of nothing but calls of the program, of the token program and of the system program, from a ledger with two mints without supply; the freedom the model gives to other programs adds no figures. Hence these two facts imply every statement about the three figures that holds in all reachable pools; there is no stronger invariant about them (a pool without supply may hold free ORCA, everything may be set aside, and so on), and every price of xORCA from par upwards occurs.", "quantifier": "all triples of numbers; all reachable states", "why_tests_cant": "existence of a history for each of all triples, and an invariant of all histories", "anchors": ["solana-program/src/instructions/stake.rs:process_instruction", "solana-program/src/instructions/unstake.rs:process_instruction", "solana-program/src/instructions/initialize.rs:process_instruction", "solana-program/src/util/math.rs"]}
{"id": "C115", "title": "What can be planned can be done", "statement": "A plan is a list of acts of one user (stake, unstake, withdraw, set the cool-down, hand over the authority, send ORCA to the vault, burn xORCA) that is possible according to the figures alone: supply, ORCA not set aside, ORCA set aside, cool-down, authority and open requests, with the formulas of the conversions and the limits of 64 and 128 bits. With the real hash function and curve there is a ledger from which every plan, of any length, is carried out by exactly its calls, and ends with exactly its figures; and at every point of it the program accepts a call of this user precisely if the plan can be continued by it. So the arithmetic of the pool leaves out nothing that matters, and every scenario calculated with it is a real history.", "quantifier": "all plans of any length, all next calls", "why_tests_cant": "existence of a history for each of infinitely many plans; acceptance and refusal of every next call", "anchors": ["solana-program/src/instructions/stake.rs:process_instruction", "solana-program/src/instructions/unstake.rs:process_instruction", "solana-program/src/instructions/withdraw.rs:process_instruction", "solana-program/src/instructions/set.rs:process_instruction", "solana-program/src/util/math.rs"]}
{"id": "C116", "title": "One can always leave again", "statement": "Whatever one user has done with the pool by stakes, unstakes, withdrawals, gifts, burns and changes of the settings, in any order and number, they can go on and take everything out, by Unstakes and Withdraws in three waves a cool-down apart, even if all 256 indices are in use or a single conversion of the whole supply would overflow. Every one of these calls succeeds. In the end there is no xORCA, no request and nothing set aside, all rent deposits are back with the user, and of their ORCA less than 100 * (backing - supply) / (supply + 100) + 2 units stay in the vault: the share of the virtual offset in what had been given away.", "quantifier": "all plans of any length, all times that are far enough apart", "why_tests_cant": "success of a sequence of calls from each of infinitely many positions", "anchors": ["solana-program/src/instructions/unstake.rs:process_instruction", "solana-program/src/instructions/withdraw.rs:process_instruction", "solana-program/src/util/math.rs"]}
{"id": "C117", "title": "A call that is sent twice", "statement": "Once an Unstake has succeeded, another one with the same accounts and index fails with IncorrectOwner, whatever the amount and the time; so does a Withdraw that is repeated; a repeated Initialize fails with StateAccountAlreadyInitialized, whatever the period. To set the same cool-down again succeeds and leaves the ledger as it is, byte for byte; to hand the authority over again is refused, unless it was handed over to the signer itself, and then it changes nothing. A second Stake of the same amount right after the first goes through as a new one: it mints as much as the first or one unit less. A second Unstake of the same amount with another index sets aside as much as the first or one unit more.", "quantifier": "all successful calls, all later times and amounts; all reachable pools", "why_tests_cant": "the second execution starts from the result of the first, for all states", "anchors": ["solana-program/src/instructions/stake.rs:process_instruction", "solana-program/src/instructions/unstake.rs:process_instruction", "solana-program/src/instructions/withdraw.rs:process_instruction", "solana-program/src/instructions/set.rs:process_instruction", "solana-program/src/instructions/initialize.rs:process_instruction"]}
{"id": "C118", "title": "What it costs to go in parts", "statement": "In a pool with xORCA, k Stakes of together A, whoever makes them, with Withdraws, Sets and other people's doings in between but without gifts, burns and Unstakes, mint less than 1 + (k-1) * (n+A+100)/(n+100) units of xORCA less than one Stake of A would, n being the ORCA not set aside before. k Unstakes, with no Stake in between, set aside less than k units of ORCA less than one Unstake of the total. So going in parts costs at most one unit for each further part, for Stakes multiplied by the growth of the pool; the factor is real (example).", "quantifier": "all reachable pools, all paths with any number of parts", "why_tests_cant": "sequences of calls of any length compared with one call", "anchors": ["solana-program/src/instructions/stake.rs:process_instruction", "solana-program/src/instructions/unstake.rs:process_instruction", "solana-program/src/util/math.rs:convert_orca_to_xorca"]}
{"id": "C119", "title": "Every byte of the program's accounts", "statement": "In every reachable ledger the state account consists of the tag 1, five zeros, the bumps of the state and vault addresses, the escrow, the cool-down, the authority and 1992 zeros, and every open request of the tag 2, five zeros, the bump of its address, index, owner, amount, time and 968 zeros, at the address derived from owner and index. Whatever else belongs to the program has zero bytes only. So state and requests are determined by their figures, in whatever way they have come about, and the reserved bytes are free for later versions of the program.", "quantifier": "all reachable ledgers, all addresses", "why_tests_cant": "an invariant on every byte over all histories", "anchors": ["solana-program/src/state/state.rs", "solana-program/src/state/pending_withdraw.rs", "solana-program/src/instructions/initialize.rs:process_instruction", "solana-program/src/instructions/unstake.rs:process_instruction", "solana-program/src/instructions/set.rs:process_instruction", "solana-program/src/instructions/withdraw.rs:process_instruction"]}
{"id": "C120", "title": "The settings without their authority", "statement": "As long as the authority signs no Set, cool-down period and authority stay as they are, whatever calls and steps of others there are. Since a hand-over needs no consent of the new authority, the authority can be given to an address nobody can sign for, the state address or the vault: then no Set ever succeeds again and both settings are fixed for good (witness).", "quantifier": "all reachable pools and all paths from them", "why_tests_cant": "absence of an effect on paths of any length", "anchors": ["solana-program/src/instructions/set.rs:process_instruction"]}
