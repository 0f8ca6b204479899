import json
S='solana-program/src/'
P=[]
def p(title, statement, quantifier, why, anchors):
    P.append(dict(id=f"C{len(P)+1:02d}", title=title, statement=statement, quantifier=quantifier, why_tests_cant=why, anchors=anchors))
ST=S+'instructions/stake.rs:process_instruction'
UN=S+'instructions/unstake.rs:process_instruction'
WD=S+'instructions/withdraw.rs:process_instruction'
IN=S+'instructions/initialize.rs:process_instruction'
SE=S+'instructions/set.rs:process_instruction'
MA=S+'util/math.rs:convert_orca_to_xorca'
MX=S+'util/math.rs:convert_xorca_to_orca'
p("Exact mint amount","A successful Stake of a ORCA units mints exactly a xORCA when the xORCA supply S or the non-escrowed vault balance N (vault balance minus escrowed amount, both before the call) is zero, and exactly floor(a*(S+100)/(N+100)) otherwise.",
 "all account contents, all ledgers, all stake amounts for which Stake succeeds","the amount is a function of three 64-bit inputs read from raw account bytes; tests sample a few",[ST,MA])
p("Exact redemption amount","A successful Unstake of x xORCA units sets aside exactly floor(x*(N+100)/(S+100)) ORCA, where N and S are the non-escrowed vault balance and the supply before the call.",
 "all ledgers and amounts for which Unstake succeeds","same: sampled inputs cannot cover the arithmetic",[UN,MX])
p("Conversions never overflow silently","Both on-chain conversions either return the mathematically exact floor value or ArithmeticError; they return ArithmeticError exactly when the exact value does not fit in a u64, the product of amount and offset pool side does not fit in a u128, or (for redemption) supply or non-escrowed balance is zero. No intermediate value wraps. No such error is possible for a backed pool (S at most N), with xORCA in it where xORCA is redeemed, as long as the ORCA staked and in the pool together stay below 2^64 - 100 and no more than the supply is redeemed; with all values at 2^64 - 1 both conversions report it (witness).",
 "all triples of u64","2^192 inputs; the u128 head-room argument is arithmetic, not sampled",[MA,MX])
p("Stake then unstake never profits","Staking a and immediately redeeming everything minted yields at most a ORCA whenever the supply is non-zero or the pool is empty; when the supply is zero it yields at most a plus the ownerless non-escrowed balance that was already in the vault. (That the second case can really profit is shown by a witness.)",
 "all pool states and stake amounts","rounding direction must be right for every ratio",[MA,MX,ST,UN])
p("Unstake then restake never profits","Redeeming x xORCA and immediately restaking the ORCA obtained mints at most x xORCA, as long as other xORCA remains. (A holder who redeems the whole supply restarts the pool one to one and may get more units; shown by a witness.)",
 "all pool states with a non-zero supply and non-escrowed balance remaining, all amounts","rounding direction for every ratio",[MA,MX])
p("Splitting a stake never pays","Staking a then b mints in total at most what staking a+b at once mints; the same holds for any number of parts with anything in between but donations, Unstakes and a Stake into a pool that has ORCA and no xORCA.",
 "all pool states that are not unbacked (non-zero supply against zero ORCA), all a and b","needs a proof over nested floors",[MA,ST])
p("Splitting an unstake never pays","Redeeming x then y pays in total at most what redeeming x+y at once pays; the same holds for any number of parts.",
 "all pool states, all x and y","needs a proof over nested floors",[MX,UN])
p("Conversions are monotone and lose less than one unit","Larger inputs give outputs that are at least as large, and the floor loses strictly less than one unit of output against the exact virtual-offset ratio.",
 "all pool states and input amounts","universally quantified inequality",[MA,MX])
p("No dilution of holders","Along any history in which the supply stays non-zero, the virtual price (N+100)/(S+100) never decreases, so the ORCA a holder would obtain for a fixed x never decreases, whatever stakes, unstakes, withdrawals, sets, donations and burns others perform.",
 "all histories of instructions and environment actions of any length","unbounded interleavings",[ST,UN,WD,SE])
p("Donation attack on an empty pool does not pay","An attacker who stakes first into an empty pool, donates any d to the vault, lets one victim stake any v, and redeems everything, obtains at most what they put in (their stake plus d).",
 "all attacker stakes, donations and victim stakes","the known ERC-4626 inflation attack has an unbounded search space",[MA,MX])
p("Solvency","In every reachable state the vault's ORCA balance is at least the escrowed amount, so every pending withdrawal can be paid.",
 "all histories from genesis with arbitrary instructions, accounts and environment steps","inductive invariant over unbounded histories",[ST,UN,WD,S+'state/state.rs:State'])
p("Escrow equals the sum of open withdrawals","In every reachable initialised state the escrowed amount equals the sum of withdrawable amounts over all open pending-withdraw records.",
 "all histories from genesis","inductive invariant over an unbounded set of records",[UN,WD,S+'state/pending_withdraw.rs:PendingWithdraw'])
p("Every xORCA is backed by at least one ORCA","In every reachable state the non-escrowed vault balance is at least the xORCA supply; hence Stake never mints more xORCA than ORCA deposited and Unstake of x always sets aside at least x.",
 "all histories from genesis","inductive invariant; relies on floor directions everywhere",[ST,UN,WD])
p("Withdraw pays exactly the recorded amount","A successful Withdraw moves exactly the recorded amount from the vault to the given ORCA account, lowers the escrow by the same amount, and destroys the record; supply, cool-down, authority and bumps are unchanged.",
 "all ledgers and account lists for which Withdraw succeeds","whole post-state is described, for arbitrary raw bytes",[WD,S+'util/account.rs:close_program_account'])
p("Unstake has exactly its documented effect","A successful Unstake burns exactly x from the caller's xORCA account and the supply, raises the escrow by the redemption amount, leaves the vault balance unchanged and creates one record with owner, index, amount and maturity time now + cool-down.",
 "all ledgers and account lists for which Unstake succeeds","whole post-state is described, for arbitrary raw bytes",[UN,S+'util/account.rs:create_program_account_secure'])
p("Stake has exactly its documented effect","A successful Stake moves exactly a from a token account owned by the signer to the vault and mints to a xORCA account owned by the signer; escrow, cool-down and authority are unchanged.",
 "all ledgers and account lists for which Stake succeeds","whole post-state is described, for arbitrary raw bytes",[ST])
p("Cool-down is enforced","Every successful Withdraw of a record happens at a time at least the time of the Unstake that created the record plus the cool-down in force at that Unstake.",
 "all histories, all clocks","relates two events arbitrarily far apart in a history",[UN,WD])
p("Open records are immutable","Between its creation and its withdrawal a record's owner, amount, index and maturity time never change, whatever instructions are executed, in particular under Set of the cool-down period.",
 "all histories","unbounded interleavings",[UN,WD,SE])
p("No double withdrawal","Each record pays at most once: after a successful Withdraw the same record cannot be withdrawn again unless a new successful Unstake re-creates it.",
 "all histories","unbounded interleavings including lamport revival of the closed account",[WD,S+'util/account.rs:close_program_account'])
p("Only the unstaker is paid","A successful Withdraw is signed by the key that performed the Unstake that created the record, and the ORCA is credited to a token account whose token owner is that key.",
 "all histories, all account lists","adversarial account substitution is unbounded",[WD,S+'pda.rs','/'.join(['solana-program','src','state/pending_withdraw.rs:verify_address_with_bump'])])
p("Matured withdrawals cannot be blocked","In every reachable state a matured record can be withdrawn: a Withdraw by its owner with well-formed accounts succeeds regardless of anything other users, the update authority or donors did.",
 "all histories, all matured records","liveness over all reachable states",[WD])
p("Prefunding cannot block an Unstake","Lamports sent in advance to the pending-withdraw address do not make the creation of the record fail; the record is created with the same contents and at least the rent-exempt balance.",
 "all prefunded lamport balances","needs all balances incl. above rent minimum",[UN,S+'util/account.rs:create_account_secure'])
p("Only the update authority changes settings","A successful Set is signed by the current update authority and changes only the one requested field (cool-down period or update authority) of the state account.",
 "all ledgers, account lists and arguments","frame condition over the entire ledger",[SE])
p("Cool-down period is never negative","In every reachable initialised state the cool-down period is non-negative, so a maturity time is never before its Unstake.",
 "all histories","inductive invariant",[IN,SE])
p("Only the deployer initialises, with the requested values","A successful Initialize is signed by the fixed deployer key and the given update authority, and writes exactly the requested cool-down, authority, bumps, zero escrow and zero padding.",
 "all ledgers, account lists and arguments","whole post-state is described",[IN])
p("The pool is initialised at most once","In every history at most one Initialize succeeds; the state account is never closed, resized or re-initialised.",
 "all histories","unbounded interleavings",[IN,S+'state/mod.rs:AccountDiscriminator'])
p("Initialize accepts only a fresh, safe xORCA mint","A successful Initialize implies the xORCA mint has zero supply, six decimals, mint authority equal to the state account and no freeze authority.",
 "all mint account bytes","arbitrary account bytes",[IN])
p("Dust is rejected, not swallowed","Stake fails with InsufficientStakeAmount exactly when the mint amount would round to zero, and Unstake with InsufficientUnstakeAmount exactly when the redemption rounds to zero; no tokens move in these cases and a successful call always gives a positive amount.",
 "all ledgers passing the earlier checks","universally quantified",[ST,UN])
p("Events report the real post-state","The vault balance, escrow, supply, amounts, cool-down and index in the emitted event equal the values found in the accounts after the instruction.",
 "all successful executions","events are computed from stale copies; equality must hold for every execution",[ST,UN,WD,SE,S+'event.rs:Event'])
p("Client instruction bytes decode to the intended instruction","For every instruction and every argument the bytes built by the client decode on chain to the same instruction with the same arguments, and no two different instructions share an encoding.",
 "all instructions and argument values","round trip over all 64-bit and 256-bit arguments",[S+'instructions/mod.rs:Instruction','rust-client/src/generated/instructions'])
p("Event bytes decode to the emitted event","For every event the serialised log bytes decode in the clients to the same event.",
 "all events","round trip over all field values",[S+'event.rs:Event','js-client/src/generated'])
p("Clients read what the program stored","The client (Borsh) decoding of a State or PendingWithdraw account agrees field by field with the program's in-place (repr(C)) view of the same bytes, and re-encoding gives the bytes back.",
 "all byte contents of valid length","layout equality for all byte strings",[S+'state/state.rs:State',S+'state/pending_withdraw.rs:PendingWithdraw','rust-client/src/generated/accounts'])
p("Token conservation","No instruction creates or destroys ORCA: the sum of ORCA balances over all token accounts is unchanged; and the change of the sum of xORCA balances equals the change of the supply.",
 "all executions, all finite sets of accounts","sum over an arbitrary set of accounts",[ST,UN,WD])
p("Bystanders are untouched","An instruction changes only the accounts named in its role list; any other account, in particular other users' records and token accounts, keeps lamports, owner and data.",
 "all executions, all other accounts","frame condition over the entire ledger",[ST,UN,WD,SE,IN])
p("Lamports are conserved and rent is refunded","The sum of lamports over all accounts is unchanged by every instruction, and Withdraw credits the full lamport balance of the record to the unstaker.",
 "all executions","sum over an arbitrary set of accounts; the code adds lamports with wrapping arithmetic",[WD,UN,IN,S+'util/account.rs'])
p("Forged state accounts are rejected","In every reachable state, any successful Stake, Unstake, Withdraw or Set used the one canonical state account created by Initialize.",
 "all histories, all account lists","adversarial account substitution; the bump used for checking comes from account data",[S+'state/state.rs:verify_address_with_bump',S+'assertions/account.rs'])
p("Forged vaults are rejected","In every reachable state, any successful Stake, Unstake or Withdraw used the canonical vault (the state account's associated ORCA token account), whose token owner is the state account and whose mint is ORCA.",
 "all histories, all account lists","adversarial account substitution",[S+'state/state.rs:verify_vault_address_with_bump',S+'assertions/account.rs:make_owner_token_account_assertions'])
p("Derived addresses of different users do not clash by construction","The byte strings hashed for pending-withdraw addresses of different (user, index) pairs, and for the state account, are different.",
 "all pairs of users, indices and bumps","injectivity over all keys",[S+'pda.rs',S+'state/pending_withdraw.rs'])
p("Rust client conversions equal the on-chain ones","For all inputs the Rust client's two conversion functions return the same value as the program, and fail exactly when the program's conversion fails.",
 "all triples of u64","equality of two implementations on 2^192 inputs",['rust-client/src/conversion.rs',MA,MX])
p("JS client conversions equal the on-chain ones","For all u64 inputs for which the on-chain conversion succeeds the JS conversion returns the same value, and it throws for redemption exactly on zero supply or zero non-escrowed balance.",
 "all triples of u64","equality of two implementations in different languages",['js-client/src/utils/conversion.ts',MA,MX])
p("Clients list every open withdrawal","Fetching a user's pending withdrawals with the maximum search bound returns every open record of that user. (False for index 255; shown by a witness, proved for indices below the bound.)",
 "all ledgers, users, bounds and indices","quantifies over all record sets",['rust-client/src/utils/mod.rs:fetch_pending_withdraws_for_staker','js-client/src/utils/index.ts:fetchPendingWithdrawsForStaker',UN])
p("Client exchange rate is the on-chain price inputs","The exchange-rate helper returns exactly the supply and non-escrowed balance the program would use on the same ledger.",
 "all ledgers","all account bytes",['rust-client/src/utils/mod.rs:fetch_staking_exchange_rate'])
p("Error codes agree","Every program error has the same numeric code in the clients and no two errors share a code.",
 "all error codes (finite, complete)","exhaustive agreement of two tables",[S+'error.rs','rust-client/src/generated/errors/xorca_staking_program.rs','js-client/src/generated/errors/xorcaStakingProgram.ts'])
p("Supply and vault move only through the right instructions","The xORCA supply increases only in Stake, the vault's ORCA decreases only in Withdraw, and the authority and cool-down change only in Set after initialisation.",
 "all instructions, ledgers, account lists","frame over all instructions",[ST,UN,WD,SE])
p("Flow accounting","Over any history the escrow equals the total set aside by successful Unstakes minus the total paid by successful Withdraws, and the total paid never exceeds total staked plus donations.",
 "all histories","sums over unbounded histories",[ST,UN,WD])
p("Client account lists satisfy the program's role checks","The account order, signer and writable flags of the generated instruction builders satisfy every role check of the program, so an instruction built with correct keys is never rejected for InvalidAccountRole or NotEnoughAccountKeys.",
 "all keys and arguments","all inputs to the builder",['rust-client/src/generated/instructions',S+'instructions/mod.rs'])
p("Stake succeeds when it should","In every reachable state a Stake with well-formed accounts, sufficient balance and a non-zero, representable result succeeds.",
 "all reachable states, all users and amounts","liveness over all reachable states",[ST])
p("Unstake succeeds when it should","In every reachable state an Unstake of a positive amount with well-formed accounts, sufficient xORCA, a free index, rent and no overflow of the clock or of the 128-bit product succeeds.",
 "all reachable states, all users and amounts","liveness over all reachable states",[UN])
p("Defensive errors are unreachable","In reachable states no instruction fails with InsufficientVaultBacking or InsufficientEscrow, and the addition to the escrow fits for every amount up to the supply; arithmetic errors, clock errors and an active cool-down are reported in no other than the intended cases.",
 "all histories, all instructions","absence over all reachable states",[ST,UN,WD])
p("An index holds at most one open record","Unstake with an index whose record is still open fails and changes nothing, and after the record is withdrawn the index can be used again.",
 "all ledgers","all prior states",[UN,S+'util/account.rs:create_account_secure'])
p("Malformed calls are rejected with the documented error","A wrong program id, undecodable instruction data, or too few accounts are rejected with IncorrectProgramId, UnknownInstructionDiscriminator and NotEnoughAccountKeys respectively.",
 "all instruction bytes and account lists","all byte strings",[S+'entrypoint.rs:process_instruction',S+'util/account.rs:get_account_info'])
p("No panic","No input makes the program panic (out-of-range slice, division by zero), provided a valid bump exists for the derived addresses it searches.",
 "all inputs and ledgers","absence over all inputs",[S+'entrypoint.rs'])
p("Authority rotation is immediate","After UpdateUpdateAuthority succeeds the old authority's Set fails and the new authority's Set is accepted.",
 "all ledgers and keys","all keys",[SE])
p("Each instruction returns only its own error codes","Every custom error an instruction returns is one of the six common account-checking errors or one of the few listed for that instruction; for example Withdraw never reports an arithmetic error and Set never reports insufficient funds.",
 "all instructions, ledgers, account lists and contexts","exhaustive over all failure paths",[S+'error.rs',ST,UN,WD,SE])
p("Initialize succeeds when it should","On a chain whose xORCA mint is fresh and handed to the state address and whose state and vault addresses are still unused, Initialize by the deployer with a non-negative cool-down succeeds, whatever lamports anyone has sent to those two addresses beforehand, provided the payer can pay the rent.",
 "all ledgers, contexts, cool-down values and lamport amounts","liveness over all ledgers; includes pre-funded addresses",[IN,S+'util/account.rs:create_account_secure',S+'cpi/mod.rs'])
p("A vault created early blocks Initialize forever","If the vault's associated token account exists before Initialize has run, no instruction of the program ever succeeds afterwards, whatever anyone does; and anyone with rent for one token account can bring this about.",
 "all reachable uninitialised ledgers and all continuations","impossibility over all continuations",[IN])
p("The declared account table is enforced","Each of the five instructions succeeds only if every account declared for it in the instruction enum is present, carries the declared signer and writable flags, has the declared fixed address and belongs to the declared program; and the clients' generated account lists set exactly those flags.",
 "all instructions, account lists and ledgers","a missing check on any one account of any instruction is only visible with an adversarial account",[S+'instructions/mod.rs:Instruction',S+'assertions/account.rs','rust-client/src/generated/instructions'])
p("Exact acceptance conditions","In reachable states, for token accounts that are well-formed, each instruction succeeds if and only if a short list of conditions on addresses, signers, balances, time and rent holds: nothing else is required and nothing is missing.",
 "all reachable states, all account lists and arguments","an equivalence over all inputs: shows both that no check is missing and that no check is superfluous",[ST,UN,WD,SE,IN])
p("Quotes are exact, and stale quotes err in the known direction","The amount the client computes from one consistent read of the ledger is exactly what a Stake or Unstake executed on that ledger gives. Whatever happens between the quote and the execution, except a Stake into a pool whose supply had gone to zero while ORCA was left in it, an Unstake gives at least the quoted amount and a Stake at most the quoted amount.",
 "all reachable states, all amounts, all histories between quote and execution","relates two implementations across arbitrary intermediate histories",['rust-client/src/utils/mod.rs:fetch_staking_exchange_rate','rust-client/src/conversion.rs',ST,UN])
p("Record addresses hold records or nothing","If nobody but the program can create accounts at the program's derived addresses, then the record address of a user and an index is blank or holds that user's open record with that index, everything a client lists for a user is an open record of that user, and every index without an open record can be used by Unstake; each time up to an explicitly named SHA-256 collision.",
 "all histories, users and indices","the clients do not check the account owner when listing; soundness is a property of all histories",['rust-client/src/utils/mod.rs:fetch_pending_withdraws_for_staker','js-client/src/utils/index.ts:fetchPendingWithdrawsForStaker',UN,S+'util/account.rs:create_account_secure'])
p("When the Rust listing fails, and that others can make it fail","The Rust client's listing of pending withdrawals fails exactly when some account below the search bound exists and does not decode as a record. Anyone can bring this about for any user with an unused index by sending lamports to its address; the JS listing is not affected.",
 "all ledgers, users and bounds","an exact failure condition over all ledgers, and an attack",['rust-client/src/utils/mod.rs:fetch_pending_withdraws_for_staker','js-client/src/utils/index.ts:fetchPendingWithdrawsForStaker'])
p("The exchange rate may mix three ledgers","The exchange-rate helper reads state, vault and mint in three calls. If they see three successive ledgers the result equals each figure at its own time; the mixed figures can describe a price that never existed (witness).",
 "all triples of successive reachable ledgers","races between reads and transactions",['rust-client/src/utils/mod.rs:fetch_staking_exchange_rate'])
p("All holders are covered at once","If the token program keeps the books of xORCA in order (accounts together hold at most the supply) then so does this program, and the vault covers the redemption of all xORCA in any set of accounts and all open records at the same time, and any holder can unstake any part of their balance without a further condition on the supply.",
 "all histories, all finite sets of accounts and records","sums over arbitrary sets of holders after arbitrary histories",[ST,UN,WD,MX])
p("No coalition profits","Along any path without a Stake into an ownerless pool, if the others hold some fixed amount of xORCA at both ends, then what the remaining xORCA is worth at the end plus all ORCA set aside on the way is at most all ORCA staked and donated on the way plus what the remaining xORCA was worth at the start. In particular nobody who starts without xORCA gets more out than was put in, and a pool with no more ORCA has no more xORCA.",
 "all paths, all interleavings of any number of users","covers every strategy of any group of users, not only the known attack patterns",[ST,UN,WD,MA,MX])
p("A staker loses at most dust","Who stakes and later, whatever others do in between (except staking into a pool without xORCA), unstakes exactly what was minted, gets back the deposit less than the price of one unit of xORCA plus one unit of ORCA short; the first staker loses nothing.",
 "all reachable states, all amounts, all intermediate histories","lower bound over arbitrary intermediate histories",[ST,UN,MA,MX])
p("Every check is made in every ledger","A successful call of each instruction has passed every listed check on roles, addresses, owners, lengths, discriminators, stored bumps, token owners and mints, mint authorities, balances and times, in any ledger whatsoever, including unreachable ones where some of these checks are the only protection.",
 "all ledgers (no reachability assumed), all account lists, contexts and arguments","a dropped check that is redundant in reachable states is invisible to every history-based test",[ST,UN,WD,SE,IN,S+'assertions/account.rs'])
T='ts-scripts/'
p("Command-line scripts send exactly what was asked","What stake.ts, unstake.ts, withdraw.ts, set.ts and initialize.ts send decodes to the intended instruction with exactly the requested amount, index, cool-down or key, with the addresses of the pool and of the user's associated accounts in the right order and with the right flags; the amount never exceeds the balance that was read, an account is created exactly if missing, and in any reachable ledger in which the user's accounts are in order the program accepts the call.",
 "all ledgers read, all ledgers at execution, all users and arguments","hand-written byte layouts and account lists against the program's decoder, for all arguments",[T+'stake.ts',T+'unstake.ts',T+'withdraw.ts',T+'set.ts',T+'initialize.ts',T+'constants.ts'])
p("The rates printed by status.ts are swapped","On any reachable ledger with supply and backing the rate printed as 1 xORCA = r ORCA is the number of xORCA that one ORCA buys and the rate printed as 1 ORCA = r xORCA is the number of ORCA that one xORCA redeems for; the labels as printed are right exactly if supply and backing are equal (witness that they are wrong).",
 "all reachable ledgers, all amounts","relates printed figures to the exact conversion for all amounts",[T+'status.ts',MA,MX])
p("What pending-withdraws.ts shows and misses","Each row shown is an open record of the user with an index below 15 with its amount and time, every such record has a row, and ready means that the program accepts the time. Records with larger indices are never shown, and the creation time shown is right exactly if the cool-down has not changed since (witness for both).",
 "all histories, users and clocks","completeness and soundness over all record sets and histories",[T+'pending-withdraws.ts',UN,SE])
p("Number arguments of the scripts","The decimal text of an index or cool-down up to 2^53 is sent as that number and indices out of range are refused; but an index that is not a number silently means index 0 and a larger cool-down is silently rounded (witness). The seconds remaining printed by withdraw.ts are positive exactly if the record has not matured, and the error code it looks for is that of an active cool-down only.",
 "all texts, numbers, ledgers and clocks","JavaScript number parsing and rounding over all inputs",[T+'unstake.ts',T+'withdraw.ts',T+'set.ts',T+'initialize.ts',S+'error.rs'])
p("The price rises by rounding only","A single call raises the price of xORCA by at most the factor that rounding allows: (backing'+100)(supply+100) is at most (backing+100)(supply'+101). Along any path on which others neither donate nor burn and the supply stays at least m, k Stakes and Unstakes raise it by at most the factor ((m+101)/(m+100))^k and nothing else raises it.",
 "all reachable states, all paths of any length","an upper bound over unbounded sequences of calls of any users",[MA,MX,ST,UN])
p("Donation attack against any number of victims","An attacker stakes a into an empty pool and donates d, then k victims stake any amounts, then the attacker unstakes everything. The payout is at most a(a+d+100)/(a+100) times (a+101+k)/(a+101), and at most a+d if k(a+d) is at most 100d. The condition on k cannot be dropped: a concrete attack against two victims earns one unit (witness).",
 "all reachable states, all amounts, any number of victims","multi-step attack with unboundedly many victims",[MA,ST,UN])
p("The program refines an abstract pool","Every history of the program, with arbitrary steps of others, is step by step a run of a small abstract machine over five figures (supply, backing, cool-down, authority, open requests): each call follows the rule of its instruction and others can only give ORCA and burn xORCA.",
 "all histories","refinement over all histories",[ST,UN,WD,SE,IN])
p("No account has two roles","In every successful call, with the ORCA mint a well-formed mint, the state, vault, record, token accounts and mints passed are pairwise different, and the signer is not the state or the record; so no account is written through two roles.",
 "all ledgers, all account lists","all aliasing patterns of account lists",[ST,UN,WD,SE,IN])
p("What a very long cool-down stops","In every reachable state with a positive clock the authority can set a cool-down so long that no Unstake succeeds until there is another Set, whatever else happens; Stake and Withdraw of open requests are not affected (example).",
 "all reachable states, all continuations without a Set","impossibility over all continuations",[SE,UN])
p("A user has at most 256 requests, all of their own making","A user has at most 256 open requests; with all indices in use every Unstake of that user fails; and every open request of a user was made by an Unstake that the user signed, so nobody else can use up a user's indices.",
 "all histories, users and indices","counting over all histories",[UN,'solana-program/src/state/pending_withdraw.rs'])
p("Whatever others do is an environment step","Every instruction of the SPL token program (all of them, with delegates, multisigs, close authorities, native accounts and freezing) that the pool has not signed, anything another program may do under the ownership rule of the runtime, and the removal of empty accounts satisfies the assumptions made about others: the state and the records are untouched, the vault can only receive, xORCA can only be burnt, its authorities stay, and the token accounts never hold more xORCA than the supply.",
 "all ledgers in which the token program has kept its rules, all instructions and signers","replaces an assumption of all history theorems by a proof over the whole instruction set of another program",[ST,UN,WD,IN])
p("Solvency and price without assumptions about others","From any chain on which the xORCA mint exists and the program has not run, any sequence of calls of the program, token program instructions, steps of other programs and account removals leads to ledgers in which the vault covers what all xORCA holders together could redeem plus all pending withdrawals; and the price of xORCA never falls except by a stake into a pool without xORCA.",
 "all sequences of steps of the whole chain","end-to-end statement over the whole chain",[ST,UN,WD,SE,IN,MA,MX])
p("The program's token calls are instructions of the full token program","The transfer, mint and burn operations used in the model of the program's calls give the same ledger as the corresponding instructions of the full token program model whenever they succeed.",
 "all ledgers, accounts and amounts","consistency of two models of the same external program",[ST,UN,WD])
p("The mint hand-over script","update-xorca-mint-authority.ts sends one SetAuthority signed by the given authority: if that is the mint authority of xORCA the instruction succeeds, the state address becomes the mint authority and nothing else changes, the report is right, and an untouched mint is then as Initialize wants it. It cannot be undone: with no freeze authority the state address stays the mint authority through every sequence of calls and steps of others, initialised or not.",
 "all ledgers, signers and all continuations of the whole chain","irreversibility over all continuations",[T+'update-xorca-mint-authority.ts',IN])
p("A blocked deployment takes the mint with it","If the mint has been handed over but the program is not initialised and the vault account exists already, no xORCA is ever minted and the mint never gets another authority, whatever anyone does; anyone with rent for one token account can bring this about between the two scripts.",
 "all reachable uninitialised ledgers and all continuations","impossibility over all continuations",[T+'update-xorca-mint-authority.ts',IN])
p("The donation script","transfer-orca-to-vault.ts sends one transfer of the parsed amount from the sender's associated account to the vault, succeeds when the accounts are in order, and when executed raises vault and backing by exactly that amount, with supply, escrow and all other accounts unchanged, so no redemption value falls. The amount text is exact up to 2^53 and silently misread otherwise (witness). The printed figure Vault received is twice the amount sent (witness).",
 "all ledgers, senders and texts","exact effect for all ledgers; a wrong printed figure",[T+'transfer-orca-to-vault.ts',MX])
p("The transfer script","transfer-orca.ts sends one transfer between associated accounts, creates the recipient's account exactly if missing, moves exactly the amount, and its report of success is right between different accounts; a transfer to oneself succeeds but is reported as failed (witness). The recipient is never the state address.",
 "all ledgers, senders, recipients and amounts","all aliasing cases",[T+'transfer-orca.ts'])
p("Key files from text","generate-keypair.ts takes 64 or 128 hexadecimal digits as the key bytes; after 64 digits everything from the first other character on is ignored, so a mistyped longer key is taken for a shorter one; the example in its own usage text is refused.",
 "all texts","all texts",[T+'generate-keypair.ts'])
RM='solana-program/README.md'
RI='rust-client/src/generated/instructions/'
JI='js-client/src/generated/instructions/'
p("The event log tells the state of the pool","An indexer that starts with the authority named in Initialize and reads every event ever logged knows the escrow, the authority and the number of open requests exactly, the supply from above and the vault from below; right after a Stake or Unstake, or if nobody gives ORCA or burns xORCA outside the program, also supply and vault exactly, and so the price. The amounts in the events add up to the escrow and, but for gifts, to the vault. The cool-down is not in the log (witness), but every Unstake and Withdraw event reports the one in force.",
 "all histories with arbitrary steps of others","an invariant relating an unbounded event log to the ledger",[S+'event.rs',ST,UN,WD,SE,IN])
p("How far the program's README is right","Stake mints at least what the README's formula gives and exceeds it by less than one unit plus a*100*(n-s)/(n*(n+100)); Unstake sets aside at most the README's figure, short by less than one unit plus x*100*(n-s)/(s*(s+100)); at par both agree. They are wrong in general (witness). Initialize accepts any signing authority, not one built-in key, and Unstake does not need a writable vault.",
 "all reachable states, amounts and account lists","exact deviation over all states",[RM,MA,ST,UN,IN])
p("Rent deposits","An open record holds at all times at least the rent minimum for its size that was in force when it was made, the state keeps what it has for ever, and Initialize gives state and vault at least the minimum. A Withdraw hands over all lamports of the record, which are at least what the user paid in at the Unstake and what lay there before.",
 "all histories","lamport accounting over all histories",[UN,WD,IN,'solana-program/src/util/account.rs'])
p("What an Unstake promises is kept","After any successful Unstake in a reachable state, whatever follows: either the record has been paid, once matured, with exactly the amount due at the Unstake, to an ORCA account of the user that signed it (up to a SHA-256 clash); or the record is open and from its maturity on the user can withdraw exactly that amount to any usable ORCA account of theirs.",
 "all reachable states, all continuations","safety and availability over all continuations",[UN,WD])
p("JS instruction builders and parsers","Identifying and parsing an instruction in JS gives from any bytes exactly what the program decodes, and throws exactly if the program cannot decode it or has too few accounts; every accepted call can be read back with the accounts the program used. Instructions built in JS are read back as built and have the published accounts and flags; a missing account is replaced by the program address, and the program refuses every such instruction. A parser on its own does not notice another instruction (witness).",
 "all byte strings, account lists and inputs","equivalence of two decoders on all byte strings",[JI+'stake.ts',JI+'unstake.ts',JI+'withdraw.ts',JI+'initialize.ts',JI+'set.ts','js-client/src/generated/shared/index.ts','js-client/src/generated/programs/xorcaStakingProgram.ts'])
p("Rust instruction builders","A chain of setter calls builds the instruction with the last value given for each account and argument, in the published order with the published flags, then the remaining accounts in order, and panics exactly if a value was never given. The builders for calls from other programs exchange the writable and signer flag of remaining accounts, so that a call with a writable remaining account that the caller cannot sign for is refused; without remaining accounts the call needs just the rights of the published table.",
 "all sequences of setter calls, all callers","all call sequences of a builder",[RI+'stake.rs',RI+'unstake.rs',RI+'withdraw.rs',RI+'initialize.rs',RI+'set.rs'])
p("A chain of transactions","If the chain is a sequence of transactions, each of which pays a fee and then either takes full effect or none, then what it leaves behind is a history as in all other properties: a failed transaction changes only its payer's lamports, every call that counts lies in a transaction that succeeded, all holders together and all pending withdrawals are covered after every transaction, and those who act in one transaction get no more out of it than they put in and than their own xORCA was worth before (unless it stakes into a pool without xORCA).",
 "all chains of transactions of any make-up, failing or not","atomicity and fees over unbounded chains",[S+'entrypoint.rs',ST,UN])
p("A call depends only on its accounts","What a call does, whether it succeeds, what it logs and with what error it fails depend only on the accounts in its list, and it changes no other account; so whatever happens to other accounts can equally happen before or after it.",
 "all pairs of ledgers that agree on the listed accounts, all calls","a relation between two executions (non-interference)",[ST,UN,WD,SE,IN,S+'util/account.rs',S+'assertions/account.rs'])
p("Borrow checks and runtime rules never stop a call","With pinocchio's borrow flags, the runtime's rules on a program's own writes, the partial view of called programs and the limit on account growth modelled, every call has exactly the same result as without them: no borrow fails, no write is refused, no lamports are out of balance. The checks themselves have effect: a call with a borrowed account is refused and so is a write to a foreign account, and without the bound on lamports the claim is false (witness).",
 "all ledgers, account lists (with any aliasing), contexts and arguments","all aliasing patterns and all control paths of the dynamic checks",[ST,UN,WD,SE,IN,S+'util/account.rs',S+'assertions/account.rs'])
p("Gifts are shared in proportion","Between two moments with the same supply and no trade between, x xORCA gain x/(supply+100) of what was given to the vault, up to less than one unit. All who unstake in one state get the same price but for one unit. Who stakes before a gift and unstakes right after it gets the stake back and the same share of the gift as everybody else, however short the stake (witness: 300000 ORCA become 415375); the cool-down only delays the payment. Redeeming all xORCA leaves behind the offset's share 100*(backing-supply)/(supply+100), rounded up.",
 "all reachable states, gifts and amounts","rational bounds over all states and paths",[ST,UN,MA])
p("How far a quote can move","Between a quote and the call, k trades of others, without gifts and burns, none of them a stake into a pool without xORCA, and with at least m xORCA in existence, move the ORCA due for x xORCA up by the factor ((m+101)/(m+100))^k at most, up to one unit, and never down; the xORCA minted for a stake falls by that factor at most and never rises. With 2k <= m+100 the rise is less than 2k/(m+100).",
 "all paths from reachable states","a bound over paths of any length",[ST,UN,MA])
p("The error table","Every instruction makes a fixed list of checks in a fixed order, read off the source: the error it reports is that of the first check that fails, whatever else is wrong, before any other program is called. If all hold, the call fails only with an error of another program, or in Unstake, after the burn, with ArithmeticError or CoolDownOverflow exactly as listed. A call that succeeds has passed them all, and an error of the program's own names the first check that failed.",
 "all ledgers, account lists, instructions and contexts with any number of things wrong at once","precedence among all combinations of failures",[ST,UN,WD,SE,IN,S+'assertions/account.rs',S+'error.rs'])
JA='js-client/src/generated/accounts/'
RA='rust-client/src/generated/accounts/'
p("Listing through a node with a limit","Both clients look up all searched addresses in one call. Through a node that answers for at most n accounts per call the listing works as without a limit for bounds up to n and fails for larger ones, so a request with an index of n or more is never listed. With the limit 100 of the Solana RPC API there is a reachable ledger with an open request of index 200 that neither client lists with any bound (witness).",
 "all limits, bounds, users and ledgers","behaviour against any node, over all bounds; a witness on a concrete chain with the real hashes",['rust-client/src/utils/mod.rs','js-client/src/utils/index.ts'])
p("Account encoders, decoders and fetchers of the clients","What the Borsh encoder of the Rust client writes for a state or a request is read back the same; the JS encoders write the same bytes whenever all numbers are in range (paddings and byte arrays are padded or cut to size) and throw otherwise. The fetch functions return exactly the decoded data of the accounts, in order, and fail exactly if one is missing or does not decode. They do not check the kind of an account: every state account decodes as a request, too, so the state of an initialised pool is fetched as a request without an error.",
 "all field values, byte strings, ledgers and key lists","round trips and equivalence of encoders on all inputs",[JA+'state.ts',JA+'pendingWithdraw.ts',RA+'state.rs',RA+'pending_withdraw.rs'])
p("The rent rule of the runtime","The runtime refuses a transaction that leaves an account with some lamports but less than the rent minimum, unless it was so before and did not gain. Stake and Set never break this rule, and the others can break it only at their first account, the wallet that pays or receives. An Unstake keeps it if the wallet is left with the minimum or with nothing, a Withdraw if the record holds the minimum of a wallet, which it does in every history in which the minimum of a wallet now does not exceed what the minimum of a record has been.",
 "all ledgers, calls and rent rates","all lamport amounts at the boundary of the rule",[UN,WD,ST,SE,IN,S+'util/account.rs'])
p("Everybody can leave","In every reachable state any number of holders with usable accounts, free record addresses and xORCA can unstake one after another, in any order: no call fails, and the amount set aside for each, the last one included, is at least what the formula gave before the first call. Any number of matured requests can be withdrawn one after another, each paid in full. Together: if all unstake, the cool-down passes and all withdraw, everybody has at least the quote of the beginning more, the requests are gone and the escrow is as before.",
 "all reachable states, all groups of users, all orders","a run of calls of any length, success and amounts of every one",[UN,WD])
p("A Withdraw commutes with the calls of others","If in a reachable state one user's Withdraw and another user's Stake, Unstake or Withdraw both succeed, then each succeeds after the other as well, and both orders end in one and the same ledger, byte for byte: no one can gain or lose by the place of a Withdraw. Two Stakes do not have this property: the order can move one unit of xORCA (witness).",
 "all reachable states, pairs of users and calls","equality of the results of two executions on all states",[ST,UN,WD])
JT='js-client/src/generated/types/'
RT='rust-client/src/generated/types/'
p("Type and instruction encoders of the clients","The JS encoders of instruction data, events, mints and token accounts accept exactly the numbers that fit their fields and throw otherwise, never wrap; what they write is byte for byte what the Rust types write and the program reads back just these values. Mints and token accounts are read back as written and written back as read. The two decoders of a mint differ in one case only: if the initialisation byte is neither 0 nor 1, Rust refuses and JS reads an uninitialised mint, an account the token program does not accept as a mint.",
 "all integers of any size, all byte strings","round trips and equivalence of encoders on all inputs",[JT+'event.ts',JT+'tokenMint.ts',JT+'tokenAccount.ts',JT+'stateUpdateInstruction.ts',RT+'token_mint.rs',RT+'token_account.rs',JI+'stake.ts'])
p("Errors as the clients see them","Program, Rust client and JS client have the same text for each error, all different, and the Rust client turns a number into an error exactly if it is that error's code. Provided the called programs use no numbers from 6000 on, isXorcaStakingProgramError with a code answers yes for a failed call of the program exactly if the program itself failed with that error, and then the first check that failed is the one of that code. Without a code it answers yes for numbered errors of called programs, too; for an instruction sent to another program that calls this one it always answers no.",
 "all failing calls, transactions and numbering of other programs' errors","all errors at every position of any transaction",['js-client/src/generated/errors/xorcaStakingProgram.ts','rust-client/src/generated/errors/xorca_staking_program.rs',S+'error.rs'])
p("The order of calls hardly matters","Any number of Withdraws, several of one user among them, succeed in every order or in none, and all orders end in one and the same ledger, byte for byte. What one and the same Unstake or Stake gives after two different sequences of trades, Withdraws and Sets of others (without gifts, burns and stakes into a pool without xORCA), for instance the same calls in two orders, differs by rounding only: by the factor ((m+101)/(m+100))^k at most, up to one unit, with k trades and at least m xORCA in existence.",
 "all reachable states, all sets of open requests and their permutations, all pairs of call sequences","permutations of any length; two executions compared on all states",[ST,UN,WD,S+'util/math.rs'])
p("What an empty pool gives away","When the last xORCA is unstaked, about 100/(supply+100) of what the pool earned stays in the vault, and whoever stakes next into the pool without xORCA and leaves again takes it, all but one unit with a stake of a hundred times as much. So a donation attack pays after all if the victim leaves as well (witness: with the attacker's 5 ORCA gift the victim loses 48019 of 98000 units and the attacker gains 47917). Who keeps out stakes of a has put more than 100(a-1) units into the pool that stay there unless someone stakes into an empty pool. The comment that the supply cannot become 0 again because a unit of xORCA went to the incinerator is wrong under the rules of the SPL token program: anybody can burn it.",
 "all reachable states, amounts and paths","bounds over all states and paths; a witness run of ten steps",[S+'util/math.rs',ST,UN])
p("The audit report, before and after","The functions quoted in the audit report, before their correction, have the reported defects: without the offset a first staker of one unit who donates d gains from every victim who stakes between d+3 and 2d+1 units, and keeps out all smaller stakes at no cost, where with the present conversions only stakes below about a hundredth of the pool are kept out and the one unit is redeemed for about a hundredth of the pool; the old creation of an account fails at every address with a lamport and is the same elsewhere; the old closing leaves an account of the program with its contents, the present one leaves nothing; the state address check that was missing in Unstake is implied by owner and tag.",
 "all amounts, donations, ledgers and addresses","the old attack for all parameters; comparison of two versions on all states",[S+'util/math.rs',S+'util/account.rs',UN])
p("One unit held by the pool closes the gap","If a token account for xORCA that belongs to the state address holds at least one unit, then no call ever changes that account and others can only add to it, so the supply stays positive and no stake ever meets a pool that has ORCA but no xORCA. From then on the price of xORCA never falls and no coalition takes out more than it put in and its xORCA was worth, whatever happens, without the exception that the general statements need.",
 "all histories of calls and of real steps of the token program and other programs","an invariant of all later histories, whoever acts",[S+'util/math.rs',ST,UN])
p("Running at the same time changes nothing","The Solana runtime runs transactions at the same time if none may write an account that another one lists. A call of the program keeps to its list: success, failure and everything it writes depend on the listed accounts alone, and no account is changed that is not listed as writable; so do several calls in one transaction. Hence a batch of transactions without conflicts, calls of the program among them, ends in the ledger of running them one after the other, in any order. Two successful calls of the program always conflict, since all but Stake lock the state account for writing and two Stakes share the xORCA mint, so the program is never run twice at the same time.",
 "all batches of transactions, all orders, all calls from reachable states","interleavings of any number of transactions",[ST,UN,WD,SE,IN])
p("Who can freeze what","A token account gets frozen only by an instruction of the token program signed by the freeze authority of its mint, never by a call of this program. A mint without a freeze authority never gets one, so from Initialize on no xORCA account can ever be frozen, and if the ORCA mint has no freeze authority the vault is never frozen and the owner of a matured request can always withdraw it, without any assumption on the vault. A frozen vault stops every Stake and every Withdraw. Initialize checks the freeze authority of the xORCA mint only: with an ORCA mint that has one, the vault can be frozen, Unstake still burns xORCA, and the request cannot be paid until the vault is thawed, after which it is paid in full (witness).",
 "all sequences of calls of the program, of the token program and of other programs","an invariant over everything the token program can do; a witness run of seven steps",[IN,ST,UN,WD])
p("What of its surroundings a call looks at","Besides the accounts a call sees hashes, a curve test, the clock and the rent rate. Stake computes two hashes and tests one point, Set computes one hash, and both look neither at the clock nor at the rent rate; Withdraw computes three hashes, and of the clock it matters only whether the record is due; Unstake computes two hashes and those of the search for the record, one for each bump from 255 down to the one found, and looks at the clock and the rent of 1024 bytes; Initialize computes those of two searches and looks at the rent of its two accounts, not at the clock. In any other surroundings that agree on just these, every call does the same, success or failure. All of it is needed: a successful Stake, Set or Withdraw does the same elsewhere exactly if these agree, and for Unstake and Initialize the searches end at the same bumps.",
 "all calls, ledgers, hash functions, clocks and rent rates","two executions compared on all surroundings",[ST,UN,WD,SE,IN])
p("What the runtime hands over and takes back","The runtime passes accounts and arguments to the program as one block of memory, in which an account listed twice is written once, and the program's account pointers point into it. What the program reads from the block is what was put into it: every account of the list, up to 254, in order, with key, flags, owner, lamports and data, the instruction data and the program id; two entries are the same account in memory exactly if they have the same key. A write through one pointer, with up to 10240 bytes of growth, is not seen through that of another account. No call makes an account longer than 2048 bytes that was not, so the room for growth always suffices. Writing the block, reading it, running the call, writing the accounts back and reading them again has exactly the outcome of the call on the ledger, success or failure.",
 "all account lists (with repetitions), ledgers, instruction data and calls","a round trip over all lists and contents; positions depend on all lengths",[S+'entrypoint.rs:process_instruction',ST,UN,WD,SE,IN])
p("To make others lose costs a hundred times as much","An attacker who holds some of the xORCA gives ORCA to the vault, a victim stakes, the attacker leaves, and later, whatever has happened in between (except a stake into a pool without xORCA), the victim leaves, too. Then 99 times what the victim has lost is at most what the attack has cost, up to 100 units and 100 times the price of xORCA before the attack. The factor is sharp: there is a case in which the cost is less than 101 times the loss.",
 "all reachable states, holdings, gifts, stakes and continuations","a bound over all amounts and paths",[MA,ST,UN])
p("What a call asks of the runtime","Every call, successful or not, computes at most 3 (Stake), 260 (Unstake), 4 (Withdraw), 1 (Set), 768 (Initialize) hashes for derived addresses and calls other programs only in a fixed order, at most 2, 4, 1, 0 and 4 times; a call that is not understood does neither. A successful Stake, Withdraw or Set always makes the same hashes and calls; Unstake and Initialize make those of their searches, one for each bump from 255 down, and lamports sent ahead to the new account cost one or two calls of the system program more and nothing else. A failing call logs no event, a successful one logs its events as the very last thing. Once another program has been called, no instruction can fail with an error of the program's own, except Unstake with ArithmeticError or CoolDownOverflow.",
 "all calls, ledgers, account lists and contexts, successful or failing","a bound on all executions; the order of effects on every path",[ST,UN,WD,SE,IN,S+'util/account.rs',S+'event.rs',S+'assertions/account.rs'])
p("Which figures a pool can have","With the real hash function and curve, a supply s, an amount n of ORCA not set aside and an escrow e occur together in some initialised pool that can be reached exactly if s is at most n and n + e is below 2^64. This is so already if the history consists of nothing but calls of the program, of the token program and of the system program, from a ledger with two mints without supply; the freedom the model gives to other programs adds no figures. Hence these two facts imply every statement about the three figures that holds in all reachable pools; there is no stronger invariant about them (a pool without supply may hold free ORCA, everything may be set aside, and so on), and every price of xORCA from par upwards occurs.",
 "all triples of numbers; all reachable states","existence of a history for each of all triples, and an invariant of all histories",[ST,UN,IN,S+'util/math.rs'])
p("What can be planned can be done","A plan is a list of acts of one user (stake, unstake, withdraw, set the cool-down, hand over the authority, send ORCA to the vault, burn xORCA) that is possible according to the figures alone: supply, ORCA not set aside, ORCA set aside, cool-down, authority and open requests, with the formulas of the conversions and the limits of 64 and 128 bits. With the real hash function and curve there is a ledger from which every plan, of any length, is carried out by exactly its calls, and ends with exactly its figures; and at every point of it the program accepts a call of this user precisely if the plan can be continued by it. So the arithmetic of the pool leaves out nothing that matters, and every scenario calculated with it is a real history.",
 "all plans of any length, all next calls","existence of a history for each of infinitely many plans; acceptance and refusal of every next call",[ST,UN,WD,SE,S+'util/math.rs'])
p("One can always leave again","Whatever one user has done with the pool by stakes, unstakes, withdrawals, gifts, burns and changes of the settings, in any order and number, they can go on and take everything out, by Unstakes and Withdraws in three waves a cool-down apart, even if all 256 indices are in use or a single conversion of the whole supply would overflow. Every one of these calls succeeds. In the end there is no xORCA, no request and nothing set aside, all rent deposits are back with the user, and of their ORCA less than 100 * (backing - supply) / (supply + 100) + 2 units stay in the vault: the share of the virtual offset in what had been given away.",
 "all plans of any length, all times that are far enough apart","success of a sequence of calls from each of infinitely many positions",[UN,WD,S+'util/math.rs'])
p("A call that is sent twice","Once an Unstake has succeeded, another one with the same accounts and index fails with IncorrectOwner, whatever the amount and the time; so does a Withdraw that is repeated; a repeated Initialize fails with StateAccountAlreadyInitialized, whatever the period. To set the same cool-down again succeeds and leaves the ledger as it is, byte for byte; to hand the authority over again is refused, unless it was handed over to the signer itself, and then it changes nothing. A second Stake of the same amount right after the first goes through as a new one: it mints as much as the first or one unit less. A second Unstake of the same amount with another index sets aside as much as the first or one unit more.",
 "all successful calls, all later times and amounts; all reachable pools","the second execution starts from the result of the first, for all states",[ST,UN,WD,SE,IN])
p("What it costs to go in parts","In a pool with xORCA, k Stakes of together A, whoever makes them, with Withdraws, Sets and other people's doings in between but without gifts, burns and Unstakes, mint less than 1 + (k-1) * (n+A+100)/(n+100) units of xORCA less than one Stake of A would, n being the ORCA not set aside before. k Unstakes, with no Stake in between, set aside less than k units of ORCA less than one Unstake of the total. So going in parts costs at most one unit for each further part, for Stakes multiplied by the growth of the pool; the factor is real (example).",
 "all reachable pools, all paths with any number of parts","sequences of calls of any length compared with one call",[ST,UN,MA])
p("Every byte of the program's accounts","In every reachable ledger the state account consists of the tag 1, five zeros, the bumps of the state and vault addresses, the escrow, the cool-down, the authority and 1992 zeros, and every open request of the tag 2, five zeros, the bump of its address, index, owner, amount, time and 968 zeros, at the address derived from owner and index. Whatever else belongs to the program has zero bytes only. So state and requests are determined by their figures, in whatever way they have come about, and the reserved bytes are free for later versions of the program.",
 "all reachable ledgers, all addresses","an invariant on every byte over all histories",[S+'state/state.rs',S+'state/pending_withdraw.rs',IN,UN,SE,WD])
p("The settings without their authority","As long as the authority signs no Set, cool-down period and authority stay as they are, whatever calls and steps of others there are. Since a hand-over needs no consent of the new authority, the authority can be given to an address nobody can sign for, the state address or the vault: then no Set ever succeeds again and both settings are fixed for good (witness).",
 "all reachable pools and all paths from them","absence of an effect on paths of any length",[SE])
open('/verif/properties.jsonl','w').write(''.join(json.dumps(x)+'\n' for x in P))
print(len(P))
for x in P: print(x['id'],x['title'])
