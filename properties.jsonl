{"id": "C01", "title": "Gas arithmetic is exact or clamped, never wrapped", "statement": "AddUint64, MulUint64 and SubUint64 return the true mathematical result when it fits in 64 bits and otherwise the nearest bound (maximum, maximum, zero). The ...WithErr variants report an error exactly when the true result does not fit. The signed helpers return the true result whenever it fits.", "quantifier": "all pairs of 64-bit (32-bit) machine integers", "why_tests_cant": "2^128 operand pairs; overflow detection by post-hoc comparison is easy to get subtly wrong at boundaries", "anchors": ["math/overflow.go: AddUint64, AddUint64WithErr, MulUint64, MulUint64WithErr, SubUint64, AddInt64, AddInt32, SubInt"]}
{"id": "C02", "title": "A new big-integer handle never aliases a live one", "statement": "Every big integer allocated by a contract gets a handle that is not in use, has the requested value, and leaves the value behind every other handle unchanged, whatever handles the contract created or touched before.", "quantifier": "all histories of big-integer allocations, reads (which implicitly create) and writes, with arbitrary (also negative) handle numbers", "why_tests_cant": "the allocator starts at the map size and probes upward, so a collision needs a particular history of explicit handles", "anchors": ["arwen/contexts/bigint.go: Put, GetOne, GetTwo, GetThree"]}
{"id": "C03", "title": "Big-integer API computes exact integer arithmetic, independent of aliasing", "statement": "bigIntAdd/Sub/Mul/TDiv/TMod/EDiv/EMod/Abs/Neg/Cmp/Sign/And/Or/Xor/Not/Shl/Shr store in the destination the value of the mathematical operation on the operands as they were before the call, including when destination and operand handles coincide, and touch no other handle; division by zero and negative operands of shifts and bitwise operations fail the execution without writing.", "quantifier": "all handle triples (also aliased), all integer values of any size", "why_tests_cant": "unbounded integers and all aliasing patterns", "anchors": ["arwen/elrondapi/bigIntOps.go: v1_3_bigIntAdd \u2026 v1_3_bigIntShl"]}
{"id": "C04", "title": "Byte encodings of big integers are inverse to each other", "statement": "Writing an integer as signed (two's complement) bytes and reading it back gives the same integer; writing a non-negative integer as unsigned big-endian bytes and reading it back gives the same integer; the encodings are minimal in length.", "quantifier": "all integers of any size", "why_tests_cant": "infinitely many integers, with edge cases at every byte boundary", "anchors": ["arwen/elrondapi/bigIntOps.go: v1_3_bigIntGetSignedBytes, v1_3_bigIntSetSignedBytes, v1_3_bigIntGetUnsignedBytes, v1_3_bigIntSetUnsignedBytes", "twos-complement package used there"]}
{"id": "C05", "title": "Big integers of the caller survive nested calls", "statement": "Whatever a called contract does with big integers in its own context, after the call returns the caller reads the same value behind each of its handles as before the call; the callee starts with no handles.", "quantifier": "all callee behaviours and nesting depths", "why_tests_cant": "arbitrary callee code", "anchors": ["arwen/contexts/bigint.go: PushState, PopSetActiveState", "arwen/host/execution.go: executeOnDestContextNoBuiltinFunction, finishExecuteOnDestContext"]}
{"id": "C06", "title": "Storage reads return the latest write", "statement": "A storage load by a contract returns the last value the same contract stored under that key in this execution, or the on-chain value if it has not stored one, for any interleaving of loads, stores and nested calls over any keys and contracts (failed calls undo their stores), as long as the node itself does not change that storage during the execution.", "quantifier": "all sequences of loads/stores/cross-address loads over all addresses and keys", "why_tests_cant": "arbitrary histories; reads are cached in the same map used to report updates", "anchors": ["arwen/contexts/storage.go: GetStorage, GetStorageUnmetered, GetStorageFromAddress, SetStorage"]}
{"id": "C07", "title": "Storage writes are confined to the executing contract", "statement": "A storage write of one contract changes what is read at (and reported as an update for) no other address, and no other key of its own address.", "quantifier": "all addresses, keys, values and prior states", "why_tests_cant": "for every other address and key", "anchors": ["arwen/contexts/storage.go: SetStorage", "arwen/contexts/output.go: GetStorageUpdates"]}
{"id": "C08", "title": "Protected keys cannot be written by contracts", "statement": "No execution of contracts changes the value stored under a key with the protocol-reserved prefix or with the prefix ARWEN@ (other than the host's own lock and async entries); each such attempt fails with the matching error, and the protection is still on after every transaction, whatever its outcome.", "quantifier": "all transactions and contracts, all keys with these prefixes", "why_tests_cant": "all histories, including error paths that could leave the protection disabled", "anchors": ["arwen/contexts/storage.go: SetStorage, SetProtectedStorage, isArwenProtectedKey, isElrondReservedKey, enableStorageProtection, disableStorageProtection"]}
{"id": "C09", "title": "Host bookkeeping entries (pending async calls, storage locks) cannot be forged by contract stores", "statement": "The storage keys under which the host keeps pending asynchronous calls and storage time locks are covered by the write protection, so a plain contract store to them fails.", "quantifier": "all transaction hashes / locked keys and values", "why_tests_cant": "the property is about every possible key, and the key is built by concatenation with attacker-chosen data", "anchors": ["arwen/helpers.go: CustomStorageKey", "arwen/common.go: TimeLockKeyPrefix, AsyncDataPrefix", "arwen/contexts/storage.go: isArwenProtectedKey", "arwen/elrondapi/elrondei.go: SetStorageLockWithHost"]}
{"id": "C10", "title": "Storage status and gas follow the published schedule", "statement": "A store reports Unchanged/Added/Deleted/Modified exactly according to old and new value, and charges exactly the schedule's amount for that transition (data copy, store, persist plus store of the growth, persist with refund of the shrink, refund of a delete, plus the key-length surcharge).", "quantifier": "all old/new values, keys and gas schedules", "why_tests_cant": "five-way case split over unbounded lengths and all schedules", "anchors": ["arwen/contexts/storage.go: SetStorage, useExtraGasForKeyIfNeeded"]}
{"id": "C11", "title": "Read-only execution does not change state", "statement": "While a contract runs in read-only mode its storage writes, logs and contract creations have no effect, also through nested read-only calls, until the read-only call ends.", "quantifier": "all programs run in read-only mode", "why_tests_cant": "arbitrary programs and nesting", "anchors": ["arwen/elrondapi/elrondei.go: ExecuteReadOnlyWithTypedArguments", "arwen/contexts/storage.go: SetStorage", "arwen/contexts/output.go: WriteLog", "arwen/contexts/runtime.go: SetReadOnly"]}
{"id": "C12", "title": "No execution ends with more gas than it was given", "statement": "For every call or deployment the remaining gas reported is at most the gas provided (plus the gas locked for a callback), and a host API call never increases the gas left except by returning unspent gas of a nested call or of the async lock.", "quantifier": "all programs, inputs and gas schedules", "why_tests_cant": "arbitrary programs; gas is refunded from nested calls", "anchors": ["arwen/contexts/metering.go: GasLeft, UseGas, RestoreGas, UpdateGasStateOnSuccess", "arwen/contexts/output.go: GetVMOutput"]}
{"id": "C13", "title": "Gas is conserved on success", "statement": "With the V2 rules, whenever a top-level execution succeeds, gas remaining + gas used by all accounts + gas forwarded in output transfers equals gas provided; otherwise the execution is turned into an error.", "quantifier": "all output states reached at the end of an execution", "why_tests_cant": "sums over arbitrarily many accounts and transfers with saturating arithmetic", "anchors": ["arwen/contexts/metering.go: UpdateGasStateOnSuccess, checkGas, getCurrentTotalUsedGas, getGasUsedByAllOtherAccounts, updateSCGasUsed, setGasUsedToOutputAccounts"]}
{"id": "C14", "title": "A failed execution consumes all gas and has no effects", "statement": "When a top-level call fails, its output carries the error code, zero remaining gas, zero refund, no return data, no logs and no output accounts.", "quantifier": "all errors and states in which an error can occur", "why_tests_cant": "every failure point in every program", "anchors": ["arwen/contexts/output.go: CreateVMOutputInCaseOfError", "arwen/host/execution.go: doRunSmartContractCall, doRunSmartContractCreate, doRunSmartContractUpgrade"]}
{"id": "C15", "title": "Value is neither created nor destroyed by transfers", "statement": "Every transfer made during an execution moves exactly its value from sender to receiver: the sum of all balance changes is unaffected by transfers, nested calls (successful or failed), and deployments, so at the end it equals the value brought in by the transaction.", "quantifier": "all programs, nesting structures and account sets", "why_tests_cant": "arbitrary programs with nested failing calls and state merging", "anchors": ["arwen/contexts/output.go: TransferValueOnly, Transfer, PopMergeActiveState, PopSetActiveState, mergeOutputAccounts, DeleteOutputAccount", "arwen/host/execution.go: CreateNewContract"]}
{"id": "C16", "title": "No account spends more than it has", "statement": "A transfer succeeds only if the sender's balance, including all earlier changes in this execution, covers it; balances visible to contracts never become negative.", "quantifier": "all sequences of transfers", "why_tests_cant": "unbounded histories", "anchors": ["arwen/contexts/output.go: TransferValueOnly, hasSufficientBalance", "arwen/contexts/blockchain.go: GetBalanceBigInt"]}
{"id": "C17", "title": "A failed nested call leaves no trace", "statement": "If a contract called by another contract fails, the storage updates, balances, transfers, logs, return data, nonces, deployed code and big integers of the caller's transaction are exactly as before the call (apart from consumed gas).", "quantifier": "all callee programs and failure points", "why_tests_cant": "arbitrary callee behaviour before failing", "anchors": ["arwen/host/execution.go: finishExecuteOnDestContext, finishExecuteOnSameContext", "arwen/contexts/output.go: PushState, PopSetActiveState"]}
{"id": "C18", "title": "Committed effects of successful nested calls are kept", "statement": "If a nested call succeeds, all storage updates, balance changes, transfers and logs it produced are present in the caller's final output, and those produced before it are kept: transfers and logs are append-only and in order.", "quantifier": "all nested call structures", "why_tests_cant": "merging of nested output snapshots depends on lengths and shared prefixes", "anchors": ["arwen/contexts/output.go: PopMergeActiveState, mergeVMOutputs, mergeOutputAccounts, mergeStorageUpdates"]}
{"id": "C19", "title": "Nonces only grow", "statement": "The nonce reported for an account never decreases during an execution and is raised by exactly one per successful deployment by that account.", "quantifier": "all histories including merges of nested calls", "why_tests_cant": "merges use max over snapshots", "anchors": ["arwen/contexts/blockchain.go: IncreaseNonce, GetNonce", "arwen/contexts/output.go: mergeOutputAccounts"]}
{"id": "C20", "title": "Return codes identify the cause of failure", "statement": "The return code of a failed execution is determined by its error as documented (user error for a contract-signalled error or invalid function, function not found, wrong signature, out of gas, contract not found/invalid, upgrade failed, out of funds, else execution failed) and is Ok only when there is no error; the contract's own message is reported for a signalled error.", "quantifier": "all errors, including wrapped error chains of any length", "why_tests_cant": "error chains of any length; order of checks matters", "anchors": ["arwen/contexts/output.go: resolveReturnCodeFromError, CreateVMOutputInCaseOfError", "arwen/errorWrapping.go"]}
{"id": "C21", "title": "Contract memory accesses stay within bounds", "statement": "Loading (offset, length) from contract memory either fails or returns exactly the bytes of memory in that range (zero-filled past the end only as documented); storing changes exactly the addressed range, never negative offsets, and a store followed by a load of the same range returns the stored bytes.", "quantifier": "all 32-bit offsets and lengths (also negative) and memories of any size", "why_tests_cant": "2^64 offset/length pairs with int32/uint32 conversions", "anchors": ["arwen/contexts/runtime.go: MemLoad, MemStore, MemLoadMultiple", "arwen/helpers.go: GuardedGetBytesSlice"]}
{"id": "C22", "title": "Nested calls are bounded by the instance limit", "statement": "At most the maximum number of contract instances is alive at any time; a call that would exceed it fails with an error, so every chain of nested calls is finite and every execution of terminating contracts terminates.", "quantifier": "all programs, including mutually recursive contracts", "why_tests_cant": "arbitrary recursion structure", "anchors": ["arwen/contexts/runtime.go: StartWasmerInstance, PushInstance", "arwen/host/arwen.go: MaximumWasmerInstanceCount"]}
{"id": "C23", "title": "Nested calls return to the caller's context", "statement": "After any nested call (successful, failed, or failing before it starts) the executing address, caller, arguments, function, storage address and running instance are again those of the calling contract, and all context stacks have the height they had before.", "quantifier": "all callee programs and error paths", "why_tests_cant": "every early-return path must balance its pushes and pops", "anchors": ["arwen/host/execution.go: ExecuteOnDestContext, ExecuteOnSameContext", "arwen/contexts/*.go: PushState, PopSetActiveState, PopMergeActiveState, PopDiscard"]}
{"id": "C24", "title": "Constructors and callbacks cannot be called directly", "statement": "A call naming init or solidity.ctor fails unless it is the deployment's own init call; a top-level call naming callBack fails unless the call is an asynchronous callback.", "quantifier": "all inputs and contracts", "why_tests_cant": "every entry path", "anchors": ["arwen/host/execution.go: verifyAllowedFunctionCall, execute, isInitFunctionBeingCalled"]}
{"id": "C25", "title": "Deployed code passes validation", "statement": "Code whose memory is undeclared, or that exports a function with an invalid, empty, overlong, non-ASCII or reserved name or with results/parameters, is never deployed or run after deployment.", "quantifier": "all module descriptions and names", "why_tests_cant": "all byte strings as names", "anchors": ["arwen/contexts/validator.go", "arwen/contexts/reservedFunctions.go", "arwen/contexts/runtime.go: VerifyContractCode"]}
{"id": "C26", "title": "Only the owner upgrades an upgradeable contract", "statement": "An upgrade requested by a contract changes the target's code only if the target's on-chain metadata is upgradeable and the requester is its owner; otherwise the code is unchanged.", "quantifier": "all requesters, targets and programs", "why_tests_cant": "arbitrary programs attempting an upgrade", "anchors": ["arwen/host/execution.go: checkUpgradePermission, executeUpgrade"]}
{"id": "C27", "title": "Deployment creates exactly the requested contract", "statement": "A successful deployment from a contract yields the address derived from creator and nonce, over an account that did not exist, whose reported code and metadata are the supplied ones; a failed one reports no code for that address.", "quantifier": "all programs and inputs", "why_tests_cant": "init code can do anything, including re-entering the deployer", "anchors": ["arwen/host/execution.go: CreateNewContract, performCodeDeployment", "arwen/contexts/output.go: DeployCode, DeleteOutputAccount", "arwen/contexts/blockchain.go: NewAddress"]}
{"id": "C28", "title": "Gas locked for a callback is reserved", "statement": "Registering an asynchronous call reserves the callback gas: it succeeds only if step and lock cost fit in the gas left, the locked amount is at least the schedule's callback lock, and the same amount is given back to the callback.", "quantifier": "all gas values and code sizes", "why_tests_cant": "saturating arithmetic over all 64-bit values", "anchors": ["arwen/contexts/runtime.go: ExecuteAsyncCall", "arwen/contexts/metering.go: ComputeGasLockedForAsync, UseGasBounded, UseGasForAsyncStep, unlockGasIfAsyncCallback"]}
{"id": "C29", "title": "Callback receives the outcome of the call", "statement": "When an asynchronous call runs in the same shard, the caller's callback is run with the destination's return code first, followed by its return data on success or its error message on failure, exactly once.", "quantifier": "all destination outcomes", "why_tests_cant": "all outcomes and data", "anchors": ["arwen/host/asyncCall.go: handleAsyncCallBreakpoint, executeSyncCallbackCall, createCallbackContractCallInput"]}
{"id": "C30", "title": "Pending async calls are resolved one by one and then cleared", "statement": "Each incoming callback removes its call from the stored pending set; after the last one the stored record is cleared, and the original caller is notified once.", "quantifier": "all numbers of pending calls and orders of callback arrival", "why_tests_cant": "all orders of arrival", "anchors": ["arwen/host/asyncCall.go: processCallbackStack, savePendingAsyncCalls"]}
{"id": "C31", "title": "Async gas split stays within the gas left", "statement": "The gas limits assigned to a group of asynchronous calls respect the amounts requested, share the rest equally, and sum to at most the gas left; otherwise assignment fails.", "quantifier": "all groups of calls and gas amounts", "why_tests_cant": "unbounded number of calls and 64-bit amounts", "anchors": ["arwen/host/asyncCall.go: setupAsyncCallsGas"]}
{"id": "C32", "title": "Call data encoding is unambiguous", "statement": "The data field function@hex(arg)@... produced for a call parses back to the same function and arguments.", "quantifier": "all function names without '@' and all argument lists of any bytes", "why_tests_cant": "unbounded argument lists", "anchors": ["arwen/contexts/output.go: TransferESDT", "arwen/host/execution.go: addOutputTransferToVMOutput", "vmcommon parsers (CallArgsParser)", "arwen/elrondapi/elrondei.go: createTransaction data"]}
{"id": "C33", "title": "Logs record exactly what the contract emitted", "statement": "Outside read-only mode each log call appends one entry with the contract's address, first topic as identifier, remaining topics in order and the data; in read-only mode none is added; existing entries never change.", "quantifier": "all sequences of log calls", "why_tests_cant": "all histories", "anchors": ["arwen/contexts/output.go: WriteLog"]}
{"id": "C34", "title": "Results do not depend on map iteration order", "statement": "Sums and merges computed by iterating over Go maps (gas used by other accounts, merged outputs, transferred gas, gas assigned to asynchronous calls, which calls are pending) give the same result in every iteration order. (Which of two errors reports a failed gas assignment, and which callback answers a contract called from two groups, do depend on the order.)", "quantifier": "all maps and all permutations of iteration", "why_tests_cant": "Go randomises iteration; a test sees few orders", "anchors": ["arwen/contexts/metering.go: getGasUsedByAllOtherAccounts, getCurrentTotalUsedGas", "arwen/contexts/output.go: mergeVMOutputs, mergeStorageUpdates", "arwen/host/asyncCall.go: setupAsyncCallsGas"]}
{"id": "C35", "title": "IPC messages survive the pipe", "statement": "Any sequence of messages written by the sender is read back by the receiver as the same kinds and payloads in the same order, however the stream is chunked; a truncated stream yields an error, never a wrong message.", "quantifier": "all message sequences shorter than 2^32 bytes each, all truncation points", "why_tests_cant": "all sequences and cut points", "anchors": ["ipc/common/sender.go", "ipc/common/receiver.go"]}
{"id": "C36", "title": "Dialogue nonces keep both sides in step", "statement": "In every dialogue of alternating sends and receives between two messengers each accepted message has the next nonce; duplicated, dropped or reordered messages are rejected; after reset both sides start again at zero.", "quantifier": "all interleavings of sends/receives/resets", "why_tests_cant": "arbitrary schedules", "anchors": ["ipc/common/messenger.go"]}
{"id": "C37", "title": "VMOutput survives serialization between processes", "statement": "Converting an execution output to its serializable form and back preserves accounts, storage updates, transfers, logs and scalars.", "quantifier": "all outputs whose map keys agree with the stored addresses/offsets", "why_tests_cant": "unbounded maps", "anchors": ["ipc/common/serializableVMOutput.go"]}
{"id": "C38", "title": "Every blockchain hook request is answered", "statement": "Each kind of hook request that the Arwen process can send is recognised by the node as a hook call and answered by its registered replier.", "quantifier": "all message kinds", "why_tests_cant": "enumerating kinds in a test misses the ones added later", "anchors": ["ipc/common/messages.go: IsHookCall", "ipc/nodepart/nodePart.go: doLoop", "ipc/arwenpart/blockchainGateway.go"]}
{"id": "C39", "title": "Ordered JSON printing and parsing are inverse", "statement": "Printing a JSON value with the ordered writer and parsing it returns the same value with the same key order. (A document that is nothing but a boolean is the exception: it is printed, but not parsed.)", "quantifier": "all JSON trees with parseable strings", "why_tests_cant": "all trees and strings", "anchors": ["mandos-go/orderedjson/ojParse.go", "mandos-go/orderedjson/ojToJson.go"]}
{"id": "C40", "title": "Scenario value expressions evaluate to the documented bytes", "statement": "Reconstructed expressions evaluate back to the bytes they were made from; concatenation with | concatenates evaluations; str:, address:, sc:, number forms give the documented bytes.", "quantifier": "all byte strings and expression shapes", "why_tests_cant": "unbounded strings", "anchors": ["mandos-go/expression/interpreter", "mandos-go/expression/reconstructor"]}
{"id": "C41", "title": "Fixed-width number expressions are exact or rejected", "statement": "uN:/iN: expressions yield exactly N/8 bytes that decode to the number when it is in range and an error otherwise.", "quantifier": "all integers and widths 8,16,32,64", "why_tests_cant": "all integers", "anchors": ["mandos-go/expression/interpreter: interpretFixedWidth"]}
{"id": "C42", "title": "Mock world snapshots restore the state", "statement": "Reverting the mock world to a snapshot restores accounts, balances, nonces, storage and code as they were when the snapshot was taken.", "quantifier": "all operation sequences between snapshot and revert", "why_tests_cant": "arbitrary histories", "anchors": ["mock/world/accountsAdapter: SnapshotState, RevertToSnapshot"]}
{"id": "C43", "title": "A gas schedule with a missing or zero cost is rejected and the old one kept", "statement": "A gas schedule is accepted only if every required cost is present and non-zero; otherwise the previous schedule stays in force.", "quantifier": "all schedules", "why_tests_cant": "all combinations of missing entries", "anchors": ["config/gasSchedule.go: CreateGasConfig", "arwen/contexts/metering.go: SetGasSchedule"]}
{"id": "C44", "title": "Byte helpers are inverse or length-exact", "statement": "LEB128 encoding is decodable to the same number and has no redundant bytes; inverting bytes twice is the identity; left padding yields exactly the requested size and preserves the numeric value.", "quantifier": "all numbers and byte strings", "why_tests_cant": "all lengths", "anchors": ["arwen/helpers.go: U64ToLEB128, InverseBytes, PadBytesLeft"]}
{"id": "C45", "title": "Error wrapping keeps causes", "statement": "After any sequence of wrappings errors.Is finds every wrapped error and nothing else; the base error is unchanged.", "quantifier": "all wrapping sequences", "why_tests_cant": "arbitrary chains", "anchors": ["arwen/errorWrapping.go"]}
{"id": "C46", "title": "Transactions are independent of earlier ones", "statement": "Running a transaction on a host that has already processed others gives the same output as on a fresh host with the same chain state.", "quantifier": "all histories of earlier transactions, including failed ones and ones that panicked", "why_tests_cant": "state left by any earlier history", "anchors": ["arwen/host/arwen.go: InitState, initContexts, TryCatch", "arwen/contexts/runtime.go: InitState, ClearStateStack, setWarmInstanceWhenNeeded"]}
{"id": "C47", "title": "Compiled code cache matches the code", "statement": "A contract instance created from the compiled-code cache or from the warm instance runs the code currently deployed at the called address.", "quantifier": "all histories of deployments, upgrades and calls", "why_tests_cant": "needs particular interleavings of upgrade and call", "anchors": ["arwen/contexts/runtime.go: makeInstanceFromCompiledCode, saveCompiledCode, setWarmInstanceWhenNeeded"]}
{"id": "C48", "title": "Gas refunds accumulate", "statement": "The refund reported at the end of a successful execution is the sum of all storage-release refunds of calls that were not rolled back.", "quantifier": "all programs", "why_tests_cant": "nested merges", "anchors": ["arwen/contexts/metering.go: FreeGas", "arwen/contexts/output.go: mergeVMOutputs"]}
{"id": "C49", "title": "Output aggregation equals sequential application", "statement": "Applying the reported output accounts to the pre-state gives the balances, nonces, storage and code that contracts observed at the end of the execution.", "quantifier": "all executions and pre-states", "why_tests_cant": "all histories", "anchors": ["arwen/contexts/output.go", "arwen/contexts/blockchain.go", "mock/world: UpdateAccountFromOutputAccount"]}
{"id": "C50", "title": "Code deployed indirectly is paid for", "statement": "Each deployment or upgrade made by a contract is charged the schedule's per-byte compilation cost of the deployed code, in addition to everything already spent.", "quantifier": "all sequences of deployments", "why_tests_cant": "needs multi-deployment histories", "anchors": ["arwen/contexts/metering.go: deductInitialGas, DeductInitialGasForIndirectDeployment", "arwen/host/execution.go: CreateNewContract"]}
{"id": "C51", "title": "A failed scenario transaction changes nothing but the sender's nonce and gas payment", "statement": "When a transaction step of a scenario ends with an error, or with an output whose return code is not ok, every account of the mock world is as it was before the step, except that the sender's nonce is one higher and the price of the gas has been deducted if it could be paid.", "quantifier": "all mock worlds, transactions, contracts and points of failure", "why_tests_cant": "all points of failure in all contracts, including after token transfers and nested calls", "anchors": ["arwenmandos/stepRunTx.go: executeTx", "mock/world/accountsAdapter.go: RevertToSnapshot", "mock/world/worldAccount.go: SaveKeyValue"]}
{"id": "C52", "title": "A successful scenario transaction conserves value", "statement": "When a transaction step of a scenario with a sender succeeds, the sum of all balances in the mock world is what it was, less the price of the gas; the executor's check that the balance changes add up to the value of the transaction never fails.", "quantifier": "all mock worlds, transactions and contracts", "why_tests_cant": "all transfers and nested calls", "anchors": ["arwenmandos/stepRunTx.go: executeTx, updateStateAfterTx", "mock/world/mockWorld.go: UpdateAccountFromOutputAccount, UpdateWorldStateBefore"]}
{"id": "C53", "title": "A state check of a scenario passes exactly if the world is as written down", "statement": "A checkState step passes if and only if every account written down exists with the nonce, balance, user name, code, owner, storage and tokens written down ('*' allows anything, '+' allows more of the same kind, omitted values are 0 or empty), and there are no other accounts unless allowed.", "quantifier": "all mock worlds and all descriptions of accounts", "why_tests_cant": "a check that wrongly passes is silent; all combinations of storage keys, tokens, nonces, roles and wildcards", "anchors": ["arwenmandos/stepCheckAccounts.go: checkAccounts, checkAccountStorage, checkAccountESDT, checkTokenInstances, checkTokenRoles", "mock/world/mockESDTAccount.go: GetFullMockESDTData, loadMockESDTDataInstance", "mandos-go/json/model/valueCheck.go"]}
{"id": "C54", "title": "The expected result of a transaction is met exactly if the output is as written down", "statement": "The check of a transaction's result passes if and only if status, message, returned values (number and order), refund, log entries with their topics and, if gas is checked, the gas left are as written down.", "quantifier": "all outputs and all expectations", "why_tests_cant": "a check that wrongly passes is silent; all lengths of lists", "anchors": ["arwenmandos/stepCheckTxResult.go: checkTxResults", "mandos-go/json/model/valueCheck.go"]}
{"id": "C55", "title": "What a setState step sets is found by a checkState step", "statement": "After a setState step that succeeds, a checkState step for the same accounts with the same content (nonce, balance, user name, code, storage, tokens with instances, roles and last nonces) passes, and passes without allowing other accounts if the world was empty.", "quantifier": "all descriptions of accounts and all worlds", "why_tests_cant": "all combinations of tokens, nonces and storage keys; tokens live in the same storage under keys made of name and nonce", "anchors": ["arwenmandos/util.go: convertAccount", "arwenmandos/execScenario.go: ExecuteSetStateStep", "arwenmandos/stepCheckAccounts.go", "mock/world/mockESDTAccount.go"]}
{"id": "C56", "title": "Tokens of an account do not get in each other's way", "statement": "Setting the balance of one instance of a token is seen by the next read, is refused for negative amounts, and changes no other token, instance, role, last nonce or storage entry of the account; different instances never share a storage entry.", "quantifier": "all storages, token names, nonces and amounts", "why_tests_cant": "storage keys are concatenations of name and nonce; collisions need particular names", "anchors": ["mock/world/mockESDTAccount.go: MakeTokenKey, SetTokenBalance, GetTokenBalance, GetTokenData, SetTokenData"]}
{"id": "C57", "title": "A scenario passes exactly if each of its steps does", "statement": "A scenario passes if and only if its gas schedule can be loaded and every step - setting the state, transactions with their expected results, checks of the state, included scenarios - passes in order from the state that the step before left, all under the scenario's gas schedule and with gas checked if the scenario says so.", "quantifier": "all scenarios, worlds, contracts and lengths of scenarios", "why_tests_cant": "scenarios are the tests: a runner that skips a check or runs under other settings reports success", "anchors": ["arwenmandos/execScenario.go: ExecuteScenario, ExecuteStep, ExecuteExternalStep, ExecuteTxStep", "arwenmandos/exec.go: SetMandosGasSchedule"]}
{"id": "C58", "title": "Scenarios do not depend on the scenarios run before them", "statement": "When the scenarios of a directory are run one after the other by one executor, each gets the verdict it gets when run alone.", "quantifier": "all lists of scenarios", "why_tests_cant": "all histories of one long-lived virtual machine and executor; whatever a reset forgets can matter", "anchors": ["mandos-go/controller/scenarioDir.go: RunAllJSONScenariosInDirectory", "arwenmandos/execScenario.go: Reset", "mock/world/worldDef.go: Clear"]}
{"id": "C59", "title": "Tokens sent by a contract", "statement": "A contract that sends tokens makes exactly one request to the chain, for these tokens and this receiver. If the chain grants it, the chain's new state is kept, the output has exactly one more transfer with the message the receiver's shard needs, and the gas is accounted for to the unit; if not, nothing is recorded. After a call of a built-in function the contract that receives the tokens is called if and only if it lives in the same shard and the chain's answer has one message for it; that call is the one in the message, in the name of the sender.", "quantifier": "all amounts, tokens, receivers, calls attached to the transfer, answers of the chain and states of the sender", "why_tests_cant": "depends on every combination of shard, receiver, attached call, answer of the chain and gas", "anchors": ["arwen/contexts/output.go: TransferESDT", "arwen/host/execution.go: ExecuteESDTTransfer, callBuiltinFunction, addESDTTransferToVMOutputSCIntraShardCall, isSCExecutionAfterBuiltInFunc"]}
{"id": "C60", "title": "Calls between contracts arrive as laid out", "statement": "A contract that lays out a call in its memory (address, function, arguments, amount) and calls an API function for synchronous calls makes exactly that call: the called contract sees this function, these arguments, this amount and the calling contract as caller (or, for calls by the caller and on the same context, what the API promises) at every moment of its run, with at most the gas that is left; the caller pays exactly the price of the function and of the copied bytes, and learns whether the call failed. A call into another shard is refused.", "quantifier": "all memories, calls laid out in them, contracts, depths of calls and states of the chain", "why_tests_cant": "all layouts of data in memory, and all moments of all runs of called contracts", "anchors": ["arwen/elrondapi/elrondei.go: extractIndirectContractCallArguments, ExecuteOnDestContextWithTypedArgs, executeOnSameContext, delegateExecution, executeReadOnly, getArgumentsFromMemory", "arwen/host/execution.go: ExecuteOnDestContext, ExecuteOnSameContext"]}
{"id": "C61", "title": "What contracts learn about their call and the chain", "statement": "The API functions that tell a contract about its call (own address, caller, function, arguments, value, tokens), about the transaction, the block, the chain and the results so far put exactly this data into the contract's memory (or behind a handle, or answer it), change nothing else, and cost exactly their price. Data for which there is no room fails the execution; arguments that do not exist are reported.", "quantifier": "all states of running contracts, offsets, indices, handles and data", "why_tests_cant": "all offsets, lengths and contents of memory, including data that runs over its end", "anchors": ["arwen/elrondapi/elrondei.go: getArgument, getArgumentLength, getFunction, getNumArguments, getCaller, callValue, getESDTValue, getESDTTokenName, checkNoPayment, getBlock…, getPrevBlock…, getOwnerAddress, getReturnData, getOriginalTxHash", "arwen/elrondapi/bigIntOps.go: bigIntGetCallValue, bigIntGetUnsignedArgument, bigIntGetSignedArgument", "arwen/elrondapi/smallIntOps.go: smallIntGetUnsignedArgument, smallIntGetSignedArgument"]}
{"id": "C62", "title": "Rewritten scenario files mean the same", "statement": "A scenario file that is read and written again (as the formatting tools do) is read as the same scenario: the same steps in the same order, with the same accounts, tokens, storage, transactions, expected results and checks, and the same original expressions. The parts that the writer leaves out are listed and nothing else is lost.", "quantifier": "all scenario files that the parser accepts, all resolvers of file names", "why_tests_cant": "all combinations of optional fields, wildcards, nested values and expressions in a file", "anchors": ["mandos-go/json/parse/parseScenario.go: ParseScenarioFile", "mandos-go/json/write/writeScenario.go: ScenarioToJSONString", "mandos-go/json/parse/parseAccounts.go, parseAccountsCheck.go, parseESDT.go, parseESDTCheck.go, parseTx.go, parseTxResult.go", "mandos-go/json/write/writeAccount.go, writeESDT.go, writeESDTCheck.go, writeCommon.go"]}
{"id": "C63", "title": "Storage, as contracts use it", "statement": "A contract that lays out a key and a value in its memory and stores it finds exactly this value when it reads the key again, from wherever the key lies in memory and to wherever the value is put; no other entry of any contract changes, nothing else changes, the answer tells what has become of the entry, and the price is exactly that of the schedule for the key, the bytes stored, kept and released. The same holds for 64-bit numbers (signed and unsigned), for unsigned big integers, and for time locks, which hold until their time. Reading another contract's entry works exactly if its owner allows it. Stores in read-only mode change nothing; stores under keys of the protocol or of the host fail the execution.", "quantifier": "all states of running contracts, memories, offsets, keys, values, numbers, handles and times", "why_tests_cant": "all layouts in memory, all previous values (which determine price and answer), all 64-bit and big numbers and their encodings", "anchors": ["arwen/elrondapi/elrondei.go: storageStore, storageLoad, storageLoadLength, storageLoadFromAddress, setStorageLock, getStorageLock, isStorageLocked", "arwen/elrondapi/smallIntOps.go: smallIntStorageStoreUnsigned, smallIntStorageStoreSigned, smallIntStorageLoadUnsigned, smallIntStorageLoadSigned", "arwen/elrondapi/bigIntOps.go: bigIntStorageStoreUnsigned, bigIntStorageLoadUnsigned", "arwen/contexts/storage.go: SetStorage, GetStorage, GetStorageFromAddress"]}
{"id": "C64", "title": "What contracts hand out", "statement": "What a contract lays out in its memory and hands out arrives exactly as laid out: a result is appended to the results, a log entry (identifier, topics, data) to the logs, each small or big number as its shortest encoding. A payment moves the value from the contract to the receiver if the contract owns it and the receiver may take it, and leaves a note with the data and the gas limit; otherwise the execution fails and nothing moves. An asynchronous call is registered with destination, value, data and the gas left after the price and the reservation for the callback; a call of a group is appended to its group and no other group changes. A deployment is made with exactly the code, metadata, value and arguments laid out (or the code of the named contract), its address is put into the memory, and the answer tells whether there is a new contract. An upgrade is an asynchronous call for upgradeContract with the code, the metadata and the arguments. Token transfers carry the token, nonce and amount. The price is that of the schedule and nothing else changes.", "quantifier": "all states of running contracts, memories, offsets, lengths, values, arguments, gas limits and handles", "why_tests_cant": "all layouts in memory, all amounts and balances, all gas limits around the price and the reservation, all groups already present", "anchors": ["arwen/elrondapi/elrondei.go: finish, writeLog, writeEventLog, transferValue, transferValueExecute, asyncCall, createAsyncCall, setAsyncContextCallback, createContract, deployFromSourceContract, upgradeContract, upgradeFromSourceContract, transferESDTExecute, transferESDTNFTExecute", "arwen/elrondapi/smallIntOps.go: smallIntFinishUnsigned, smallIntFinishSigned", "arwen/elrondapi/bigIntOps.go: bigIntFinishUnsigned, bigIntFinishSigned", "arwen/contexts/output.go: Finish, WriteLog, Transfer", "arwen/contexts/runtime.go: ExecuteAsyncCall, AddAsyncContextCall"]}
{"id": "C65", "title": "Numbers, hashes and signatures, as contracts use them", "statement": "A contract computes with whole numbers behind handles: addition, subtraction, multiplication, division and remainder (truncated and Euclidean), bit operations, shifts, absolute value, negation, complement and square root deliver the mathematical result, or fail the execution where there is none (division by zero, bit operations on negative numbers, negative shifts, roots of negative numbers); comparison and sign are those of the numbers; a number made from bytes or from a 64-bit word and given back is the same, in the shortest encoding, signed or unsigned. Every other handle keeps its number. A hash is the hash of exactly the bytes laid out, and a signature check asks for exactly the key, message and signature laid out. The price is that of the schedule plus a price per byte of the operands or of the message, and nothing else changes.", "quantifier": "all states of running contracts, handles, numbers of any size, memories, offsets and lengths; hash and signature functions are arbitrary", "why_tests_cant": "numbers of any size and sign, handles that coincide, handles never used before, all lengths of messages and keys", "anchors": ["arwen/elrondapi/bigIntOps.go", "arwen/cryptoapi/cryptoei.go", "arwen/contexts/bigInt.go: GetOne, GetTwo, GetThree, Put"]}
{"id": "C66", "title": "Gas is charged to the account that used it", "statement": "A successful call of a contract charges to each account exactly what the output of the call reports for it, on top of what earlier calls were charged for; a failed call charges nothing to any account. The output of a successful transaction or nested call reports, for every account other than the one whose code it runs, the sum of what the successful calls made by that code were charged for (the remaining gas spent is its own, see C13).", "quantifier": "all contracts, call trees of any depth and width, repeated calls of the same account, calls on either context, with built-in functions in between", "why_tests_cant": "sums over call trees of any shape; the record of an account must survive any number of merges and failed calls", "anchors": ["arwen/contexts/metering.go: PopMergeActiveState, addToGasUsedByAccounts, updateSCGasUsed, setGasUsedToOutputAccounts", "arwen/host/execution.go: finishExecuteOnDestContext, finishExecuteOnSameContext"]}
{"id": "C67", "title": "The node keeps working with the Arwen process across crashes", "statement": "Whatever the node does with the Arwen process and whenever that process dies: an output that is returned for a call or a deployment is the output of one complete run of exactly this request on the virtual machine that should serve it, and the node's state afterwards is that after this run; the virtual machine that serves a request uses the gas schedule that was last given to the driver; after a critical error the next request is served by a fresh virtual machine, with nothing left of the old one and all compiled code dropped, and it is answered if nothing else goes wrong; calls and deployments are counted.", "quantifier": "all histories of operations, with the process dying before any of them or after any number of questions to the node, starts failing at any stage, any behaviour of the virtual machine and of the node's hook", "why_tests_cant": "crash points and histories cannot be enumerated", "anchors": ["ipc/nodepart/arwenDriver.go: ArwenDriver, startArwen, RestartArwenIfNecessary, IsClosed, GasScheduleChange, RunSmartContractCall, RunSmartContractCreate, Close", "ipc/nodepart/part.go: StartLoop", "ipc/arwenpart/part.go: doLoop"]}
{"id": "C68", "title": "What one request to the debugger stores, the next one finds", "statement": "The debugger keeps its worlds as files, one per name. A request that made an account or ran a contract and was answered leaves a world in which the next request finds exactly what the answer says: the accounts and storage of before, with the changes of the answer applied. A query, a refused request and a failed execution leave every world as it was; requests for one world neither change nor see another one; ending the program at any moment leaves each world as before or as after the request; after any history of requests a world holds what its own requests alone would have left. The reply to a request is the output of a new virtual machine for exactly the deployment or call that the request describes, on the world that it names.", "quantifier": "all histories of requests to any worlds, with any contents, contracts, virtual machine behaviour, and any moment at which the program ends", "why_tests_cant": "histories, contents of storage and moments of a crash cannot be enumerated", "anchors": ["arwendebug/database.go: database", "arwendebug/world.go: world, toDataModel", "arwendebug/facade.go: DebugFacade", "arwendebug/messagesBase.go, messagesDeploy.go, messagesRun.go, messagesUpgrade.go, messagesQuery.go, messagesAccounts.go: digest", "arwendebug/worldInput.go"]}
{"id": "C69", "title": "Every function of the API costs at least its price", "statement": "A contract that calls a function of the API has afterwards at least the price of that function less gas than before, or none left: the entry that the gas schedule names for it, plus the price per byte of the data it was told to copy or to keep. A run of a contract costs at least the prices of all its instructions and of all functions it calls on its way; with a schedule without zero prices it cannot call more functions than it has gas.", "quantifier": "all functions of the API with all arguments, all states, all contracts called in turn to any depth, all gas schedules, all programs", "why_tests_cant": "a price that is missing shows only for the right function with the right arguments, in a nesting of calls that gives gas back", "anchors": ["arwen/elrondapi/elrondei.go", "arwen/elrondapi/bigIntOps.go", "arwen/elrondapi/smallIntOps.go", "arwen/cryptoapi/cryptoei.go", "config/gasCost.go", "arwen/contexts/metering.go: UseGas, GasLeft"]}
{"id": "C70", "title": "Requests that come in parallel", "statement": "Requests to the virtual machine may come from several threads. A change of the gas schedule is never at work while a contract runs: a contract runs from its beginning to its end under one complete schedule, made by the changes that have finished. Requests whose executions do not overlap have the same results, and leave the same state, as if they came one after the other, in the order in which they ended; so have all requests to the driver of the Arwen process. No request is locked out for ever, and a change that waits for the running contracts is not overtaken by new ones.", "quantifier": "all sets of requests, all ways in which the scheduler interleaves their steps, all ways to divide the work into steps", "why_tests_cant": "the number of interleavings is unbounded and tests do not choose them; data races show once in a million runs", "anchors": ["arwen/host/arwen.go: mutExecution, GasScheduleChange, RunSmartContractCreate, RunSmartContractCall, GetGasScheduleMap", "ipc/nodepart/arwenDriver.go: operationsMutex", "wasmer/instance.go: SetOpcodeCosts"]}
{"id": "C71", "title": "Tests in the old format", "statement": "A file of tests in the old format (.test.json) that was read can be written and is read back as the same tests. A test passes exactly if, starting from a world with nothing but its accounts and block hashes, its transactions give the results that it lists, one after the other, and end in the state that it describes; whether it passes does not depend on the tests before it in the file. The scenario that a test is converted to is written and read back unchanged, and passes exactly if the test passes.", "quantifier": "all files, all tests with any number of accounts, blocks and transactions, all executors between two transactions", "why_tests_cant": "the round trip and the conversion must hold for all combinations of optional fields, and the independence for all histories of the executor", "anchors": ["mandos-go/json/parse/testParse.go: ParseTestFile", "mandos-go/json/write/testWrite.go: TestToJSONString", "mandos-go/json/model/convertTestToScenario.go: ConvertTestToScenario", "arwenmandos/execTest.go: ExecuteTest", "mandos-go/controller/testOne.go: RunSingleJSONTest"]}
{"id": "C72", "title": "Native instances are destroyed once and not used after that", "statement": "The instances that contracts run in are memory of the native Wasm library. Whatever the contracts do and however a transaction ends, at every moment at which contract code runs, its instance and those of all callers that wait for it are not destroyed; code that starts gets an instance of its own; and after the transaction every instance that was made was destroyed exactly once.", "quantifier": "all contracts, all nestings of calls, all outcomes of transactions including panics, all histories of transactions", "why_tests_cant": "a use after destruction or a double destruction needs a certain nesting of calls and failures, and usually goes unnoticed when it happens", "anchors": ["wasmer/instance.go: Clean", "arwen/contexts/runtime.go: popInstance, CleanWasmerInstance, StartWasmerInstance, makeInstanceFromContractByteCode", "arwen/host/arwen.go: Clean"]}
{"id": "C73", "title": "A scenario file is read as it is written down, or rejected", "statement": "A scenario file is accepted exactly if every key of every object in it is one of the keys of that kind of object and every value beside a key is one that the key allows: numbers fit into their types exactly, addresses have 32 bytes, random seeds 48, royalties are at most 100 per cent, only deployments have code, only calls and queries have functions, queries have no sender, value, tokens or gas, and so on. What is read is exactly what the values say, with the documented default for each missing key. The order of the keys of an object does not matter. Every other file is rejected.", "quantifier": "all texts, all resolvers of file names and hash functions", "why_tests_cant": "a misspelled key or a number that does not fit that goes unnoticed makes a test pass that checks nothing; no set of sample files shows that none is accepted", "anchors": ["mandos-go/json/parse/parseScenario.go: ParseScenarioFile, processScenarioStep, parseTxStep", "mandos-go/json/parse/parseAccounts.go, parseAccountsCheck.go", "mandos-go/json/parse/parseESDT.go, parseESDTCheck.go, parseESDTTx.go", "mandos-go/json/parse/parseTx.go, parseTxResult.go, parseLogs.go, parseBlockInfo.go, parseNewAddresses.go, parseValue.go, parseList.go"]}
{"id": "C74", "title": "A directory of scenario files passes exactly if every file in it does", "statement": "A scenario file passes exactly if it can be read, says what a scenario says (C73), and the scenario with exactly these values passes (C57); files that it refers to, by external steps or in expressions, are looked up relative to the file that names them, at any depth, unless they were replaced. A directory passes exactly if every file at or below it whose name has the suffix and is not excluded passes; every such file is counted once, as passed, failed or skipped. Each passes as it does when it is run alone.", "quantifier": "all file systems, directory trees, texts of files, replaced paths, exclusions, virtual machines and worlds", "why_tests_cant": "the runner is what decides whether tests pass: a value lost between reading and execution, a file that is looked up in the wrong directory, or one that is not run at all would make tests pass that check nothing", "anchors": ["mandos-go/controller/scenarioDir.go: RunAllJSONScenariosInDirectory", "mandos-go/controller/scenarioOne.go: RunSingleJSONScenario", "mandos-go/controller/testDir.go: isExcluded", "mandos-go/fileresolver/fileResolverDefault.go: ResolveAbsolutePath, ResolveFileValue, Clone", "arwenmandos/execScenario.go: ExecuteScenario, ExecuteStep, ExecuteExternalStep", "arwenmandos/util.go: convertAccount, convertBlockInfo, convertNewAddressMocks, validateNewAddressMocks"]}
{"id": "C75", "title": "The command that runs tests reports success exactly if what its argument names passes", "statement": "The command succeeds exactly if its one argument names a directory whose scenario files all pass in turn, a scenario file that passes (C74), or another file that can be read as tests in the old format all of which pass in turn. The argument is looked up as it is, and below the working directory if nothing is there. A file of tests is read as it is written down, or rejected, and executed with exactly the values it says. A directory of tests passes exactly if all the tests in its files do; each passes as it does alone. For a directory of scenarios the command succeeds exactly if it succeeds for each of them.", "quantifier": "all arguments, working directories, file systems, directory trees, texts of files, virtual machines and worlds", "why_tests_cant": "the command is what reports that tests pass: no test shows that it never reports success for files that were not run or that fail", "anchors": ["cmd/test/runner.go: main, resolveArgument", "mandos-go/controller/testOne.go: RunSingleJSONTest", "mandos-go/controller/testDir.go: RunAllJSONTestsInDirectory", "mandos-go/json/parse/parseTest.go: ParseTestFile", "mandos-go/json/parse/parseBlock.go: processBlock", "arwenmandos/execTest.go: ExecuteTest"]}
{"id": "C76", "title": "Contracts in scenarios are told the blocks that the scenario describes", "statement": "In a scenario, every question of a contract about the current block, the block before or the hash of a block is answered with what the last setState step said (zero or nothing for what it did not say), at any depth of calls, whatever transactions ran in between; the only exceptions are the seed of a block that the step describes without one and the hash of a block 2^63 or more before the current one: asking for these makes the virtual machine panic.", "quantifier": "all scenarios, including nested ones, all transactions and contracts, all worlds and schedules", "why_tests_cant": "the answers must be right in every contract at every depth after every history of steps; the mock chain keeps both blocks, its snapshots and reverts and the executor's steps must all leave them alone", "anchors": ["arwenmandos/execScenario.go: ExecuteSetStateStep", "mock/world/worldCallbacks.go: GetBlockhash, CurrentNonce, LastNonce, CurrentRandomSeed, LastRandomSeed", "arwen/elrondapi/elrondei.go: getBlockNonce, getPrevBlockNonce, getBlockHash"]}
{"id": "C77", "title": "The Arwen process runs with the settings of the node", "statement": "When the node starts the Arwen process, the process gets every setting that the node has chosen \u2014 type of the virtual machine, block gas limit, every price of the gas schedule, built-in functions, protected prefix, epochs, kinds of marshalling \u2014 and then runs and answers requests.", "quantifier": "all settings, all ways in which a container of built-in functions may be written, all histories of requests to the driver", "why_tests_cant": "the tests of the driver are skipped in the repository; what gets lost depends on the settings, and that no request is ever answered is a statement about all histories", "anchors": ["ipc/common/arguments.go: SendArwenArguments, GetArwenArguments", "arwen/common.go: VMHostParameters", "cmd/arwen/main.go: doMain", "ipc/arwenpart/part.go: NewArwenPart", "arwen/contexts/reservedFunctions.go: NewReservedFunctions", "ipc/nodepart/arwenDriver.go: NewArwenDriver, startArwen"]}
{"id": "C78", "title": "Requests to the debugger that come in parallel", "statement": "When requests to the debugger's server come in parallel (or its commands are started in parallel on one folder), each is answered, and the worlds and outcomes are afterwards kept, as if the requests had been handled one after the other, whatever the order of their steps.", "quantifier": "all numbers of requests of all kinds to all worlds, all orders in which they come and their steps are made, all points in time, all contracts", "why_tests_cant": "the order of the steps of parallel requests is not under a test's control, and there are arbitrarily many; the repository has no test of the server", "anchors": ["arwendebug/server.go: Start, handleCreateAccount, handleDeploy, handleUpgrade, handleRun, handleQuery", "arwendebug/facade.go: CreateAccount, DeploySmartContract, UpgradeSmartContract, RunSmartContract, QuerySmartContract", "arwendebug/database.go: loadWorld, storeWorld, storeOutcome, marshalDataModel"]}
{"id": "C79", "title": "A test converted for the K framework is the test that was written", "statement": "Converting a JSON test file for the K framework gives the text of the K term of the document in it, in which exactly the texts that stand for code (under code, and under contractCode in a transaction that makes a contract) are replaced by the assembled code; files with different documents give different texts; a file that cannot be read is rejected and nothing panics.", "quantifier": "all files, all documents in them of any depth, all ways of assembling code", "why_tests_cant": "documents nest without bound, and that no two of them give the same text is a statement about pairs of documents; the repository has no test of the conversion", "anchors": ["mandos-go/orderedjson2kast/ojMain.go: ConvertOrderedJSONToKast", "mandos-go/orderedjson2kast/ojProcessCode.go: processTestCode", "mandos-go/orderedjson2kast/ojToKast.go: writeKast, writeStringKast"]}
{"id": "C80", "title": "Exactly the signatures are accepted", "statement": "A contract that checks a signature is answered 0 exactly if, for the key and the message in its memory, it is a signature of the scheme: Ed25519 with keys of 32 bytes, Secp256k1 over the hash of the hash of the message, BLS with a key and a signature that are proper points and not zero; otherwise it is answered -1. What the BLS signer signs with a private key is accepted for its public key, and no other signature of the message is. Hashing never fails, and no key makes a library panic.", "quantifier": "all keys, messages and signatures in all memories, all private keys, all libraries with the laws of a pairing", "why_tests_cant": "that nothing but a signature is accepted is a statement about all byte strings; the repository tests two BLS signatures, and no private keys", "anchors": ["crypto/signing/ed25519/ed25519.go: VerifyEd25519", "crypto/signing/secp256k1/secp256k1.go: VerifySecp256k1", "crypto/signing/bls/bls.go: VerifyBLS", "crypto/signing/key.go: PublicKeyFromByteArray, GeneratePublic", "crypto/signing/mcl/singlesig/bls.go: Sign, Verify", "crypto/hashing/hasher.go", "crypto/factory/cryptovm.go: NewVMCrypto"]}
{"id": "C81", "title": "Contracts call the API by its names", "statement": "A contract that imports a function of the API by its name and calls it with arguments of its types makes exactly the call of this name, with these arguments; other names, and arguments of other types, cannot be linked. Every function of the API has one name and no two share one, with the exception of the two functions for groups of asynchronous calls, which no contract can import: no contract that runs or waits ever has such a group. No contract is accepted that exports a function with the name of an import.", "quantifier": "all names and arguments, all Go values given to the table, all modules, transactions and programs of contracts, at any depth", "why_tests_cant": "that no registration is missing, refused, or overwritten by a later one of the same name shows only for the table as a whole; that there are no groups is a statement about all executions", "anchors": ["wasmer/import.go: NewImports, Namespace, Append, Names, Count", "arwen/elrondapi/elrondei.go: ElrondEIImports", "arwen/elrondapi/bigIntOps.go: BigIntImports", "arwen/elrondapi/smallIntOps.go: SmallIntImports", "arwen/cryptoapi/cryptoei.go: CryptoImports", "arwen/host/arwen.go: NewArwenVM", "arwen/contexts/reservedFunctions.go"]}
{"id": "C82", "title": "Functions of contracts are called with the arguments given", "statement": "A function that a contract exports is found under its own name, with its own types; an instance has no other functions, and it has memory exactly if the module exports one. A call with arguments that fit the parameters in number and types runs the function once, with these numbers in this order, and gives back its first result, or an error if it failed; a call with other arguments is refused with an error and runs nothing. Every function of an accepted contract runs when the host calls it, without arguments, and its result is void.", "quantifier": "all lists of exports, names, signatures, arguments of any Go types, and all behaviours of the native function", "why_tests_cant": "the conversions depend on the Go type and the value of each argument; tests call functions without arguments", "anchors": ["wasmer/instance_helpers.go: retrieveExportedFunctions, retrieveExportedMemory, createExportedFunctionWrapper", "wasmer/function_wrapper_helpers.go: validateGivenArguments, createWasmInputsFromArguments, writeInt32ToWasmInputs, writeInt64ToWasmInputs, callWasmFunction, convertWasmOutputToValue", "wasmer/value.go", "wasmer/instance.go: newInstance, HasMemory, GetSignature", "arwen/contexts/validator.go: verifyVoidFunction"]}
{"id": "C83", "title": "A dump of the world shows the world", "statement": "The dump that a scenario asks for shows every account of the world once, under its address: the nonce, the balance, every value in the storage that is not empty and not under a key of the protocol, in the order of the keys, and every token with each of its instances, the last nonce and the roles. Bytes are shown so that they can be told from the text. The dump fails exactly if the tokens of some account cannot be read. A dump can be read as the accounts of a scenario, and then gives the same world.", "quantifier": "all worlds, with any accounts, storage and tokens, and any encoding of tokens", "why_tests_cant": "dumps are looked at by people; no test compares one with the world it was made from", "anchors": ["arwenmandos/stepDumpWorld.go: convertMockAccountToMandosFormat, DumpWorld", "mandos-go/expression/reconstructor/reconstructor.go", "mandos-go/json/write/writeAccount.go: AccountsToOJ", "mandos-go/json/write/writeESDT.go", "mock/world/mockESDTAccount.go: GetFullMockESDTData"]}
{"id": "C84", "title": "A command of the debugger asks for exactly what its flags say", "statement": "A command of the debugger carries out exactly the request that its flags describe: each flag counts with the value given last, or its default; every `arguments` flag adds one argument, in order; in which order different flags are given does not matter. A flag that the command does not have, a text where a number is due or a missing flag that must be there ends the program with 1 and touches no file. The program ends with 0 exactly if the request was answered, and commands one after the other leave the files as their requests do. Every request that the server of the debugger takes can be made by a command.", "quantifier": "all commands, all lists of flags with any values, all files, all ways to read numbers, all virtual machines, all moments at which the program may be ended", "why_tests_cant": "the command line has no tests; a flag wired to the wrong field of a request is only noticed for the combination of command and flags that somebody tries", "anchors": ["cmd/arwendebug/cli.go: initializeCLI", "cmd/arwendebug/cliArguments.go: toDeployRequest, toUpgradeRequest, toRunRequest, toQueryRequest, toCreateAccountRequest", "cmd/arwendebug/main.go: main"]}
{"id": "C85", "title": "Built-in functions in the test world get the right accounts and arguments", "statement": "A call of a built-in function in the world of the scenario tests runs the function of that name, with the accounts of caller and recipient as far as they are in the own shard, with the input unchanged, and has the answer and the effects of the function; an unknown name is refused and changes nothing. The transfer of tokens before a scenario step is one such call, by the sender, for the token, nonce, amount and receiver of the step, and succeeds exactly if the function says so. Questions about tokens are answered from the storage of the account. The name servers are the contracts `sc:dns#00` to `sc:dns#ff`.", "quantifier": "all tables of built-in functions and all functions in them, all worlds, inputs, senders, receivers, tokens, nonces and amounts, all codecs of token records", "why_tests_cant": "the scenario tests are built on this world and take it as given; with one function, two accounts and one shard nearly every mix-up of accounts looks right", "anchors": ["mock/world/builtinFunctionsWrapper.go: ProcessBuiltInFunction, getAccountSharded, GetBuiltinFunctionNames", "mock/world/mockESDT.go: PerformDirectESDTTransfer, GetTokenData, GetTokenBalance, SetTokenBalance", "mock/world/worldCallbacks.go: ProcessBuiltInFunction, GetESDTToken", "mock/world/worldDef.go: ComputeId", "mock/world/dnsUtil.go: makeDNSAddresses"]}
{"id": "C86", "title": "Every gas schedule that a scenario can choose is in force with the costs of its file", "statement": "A gas schedule read from a file has exactly the costs that are written in it. Each schedule that a scenario can choose - the versions 1, 2 and 3, the newest by default, and the dummy - can be read and is accepted by the virtual machine, which from then on charges for every operation and every instruction exactly the number in the file (the dummy: 1). The first choice of an executor takes effect and later ones do not change it. Built-in functions are charged by the same schedule.", "quantifier": "all trees of sections and costs, all five kinds of schedules and all costs in them, all sequences of choices, all ways in which the decoder compares names", "why_tests_cant": "a schedule that lacks one of some 570 costs is silently not applied, and scenarios go on with the old one; a test only sees the costs that it happens to use", "anchors": ["arwenmandos/gasSchedules/gasScheduleLoad.go: LoadGasScheduleConfig", "arwenmandos/gasSchedules/tomlfiles.go: gasScheduleV1, gasScheduleV2, gasScheduleV3", "arwenmandos/exec.go: NewArwenTestExecutor, gasScheduleMapFromMandos, SetMandosGasSchedule", "config/gasSchedule.go: MakeGasMapForTests, CreateGasConfig"]}
{"id": "C87", "title": "A choice by weights chooses each outcome as often as its weight says", "statement": "Whatever outcomes and weights are given to a random choice, exactly one outcome is executed, one whose weight is not zero, and of all the numbers that can be drawn exactly as many choose an outcome as its weight says. Random events that are tried one after the other, with probabilities whose sum is at most 1, happen with these probabilities.", "quantifier": "all lists of weights, all outcomes, all lists of probabilities, all numbers that are drawn", "why_tests_cant": "the choice is random: tests see a few draws for a few lists of weights, and small errors at the boundaries between outcomes do not show in them", "anchors": ["fuzz/weightedroulette/weightedRoulette.go: RandomChoice, outputWeightSum", "fuzz/util/randomEventProvider.go: Reset, WithProbability"]}
{"id": "C88", "title": "The node starts the right program as the Arwen process", "statement": "The program that a node starts as the Arwen process is the file arwen in the current directory if there is one, and otherwise the file that the environment variable ARWEN_PATH names. Directories do not count. If there is neither, an error is reported and nothing is started.", "quantifier": "all current directories, values of the environment variable, file systems and search paths", "why_tests_cant": "it depends on the computer: which files are there, which of them the node may look at, and what the search path contains", "anchors": ["ipc/nodepart/arwenPath.go: getArwenPath, getArwenPathInCurrentDirectory, getArwenPathFromEnvironment, fileExists", "ipc/nodepart/arwenDriver.go: startArwen", "ipc/common/constants.go: EnvVarArwenPath"]}
