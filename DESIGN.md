# Formal model of arwen-wasm-vm (Lean 4)

Source: `/repo` (Go, read as text; never built or run). Model and proofs: `/verif/lean/Verif`.
Property list: `properties.jsonl`. Status per property: `MANIFEST.json`. Mutation log: `seeded/LOG.jsonl`.

## 1. Shape of the model

* Machine integers are Lean's `UInt64`, `Int32`, `UInt32`, `Int64` (wrap-around as in Go); big integers are `Int`;
  byte slices and Go strings are `List UInt8`. Go's nil and empty slices are identified unless a property depends on the difference.
* Go maps are association lists without duplicate keys (`AMap`), in insertion order. Where Go iterates over a map
  the model folds over the entries, and a separate theorem (C34) states that the result is the same for every order,
  or a counterexample shows that it is not.
* Each context of the VM (`arwen/contexts/*.go`) is a structure with an active state and a stack; each method is a
  total function on it. Pointer sharing matters in two places and is modelled there: Wasmer instances have identities
  (`popInstance` compares pointers), and snapshots are values (the Go code copies; the copying functions are modelled).
* Go errors are values; Go panics are an explicit outcome `panic` that keeps the state reached, because the host
  recovers from panics (`TryCatch`) and goes on to serve later transactions.
* The blockchain hook (node side) is a parameter: a structure of arbitrary functions over an arbitrary state type.
  Theorems quantify over all hooks; where a theorem needs the hook to behave (e.g. reverting a snapshot restores the state),
  the assumption is an explicit hypothesis.
* A contract is an arbitrary, possibly infinitely branching, well-founded interaction tree: local computation that burns gas
  and changes linear memory, and calls of the host API, whose continuation depends on the result. The map from code bytes to
  exported functions is a parameter, so every theorem ranges over all (terminating) contract behaviours.
* The host API functions are programs over a fixed set of context primitives (a free monad). An invariant kept by every
  primitive is then kept by every API function and every contract by one induction.

## 2. Files

| Module | Models |
|---|---|
| `Verif/Basic/*` | byte strings, association maps, arithmetic helpers (`math/overflow.go`, `arwen/helpers.go`) |
| `Verif/BigInt/*` | `arwen/contexts/bigint.go`, two's complement (library `big-int-util`) |
| `Verif/Errors/*` | `arwen/errorWrapping.go` and the resolution of return codes |
| `Verif/State/*` | data types (`vmcommon`), the state of the machine, the hook, contracts as interaction trees, API programs as free monads |
| `Verif/Ctx/*` | `arwen/contexts/{storage,output,metering,runtime,blockchain}.go`, validator, reserved functions; lemmas on merging outputs |
| `Verif/Host/{Exec,Top}.lean` | `arwen/host/{execution,asyncCall,breakpoints,arwen}.go` |
| `Verif/Host/*` (others) | no model: reasoning principles about the host. `Frame`, `Sim`, `Rel`, `Inv`, `OutInv`, `AccInv`, `Triple`, `Calls`, `Trace`, `Compare`, `TxOut`, … lift an invariant or a relation kept by every primitive step to nested calls, asynchronous calls and transactions of any depth |
| `Verif/Eei/*` | `arwen/elrondapi/*.go`, `arwen/cryptoapi/*.go`, `wasmer/{import,instance,instance_helpers,function_wrapper_helpers,value}.go`; `Commands.lean` lists which host commands each API function can issue |
| `Verif/Crypto/*` | `crypto/{signing,hashing,factory}` over the libraries as parameters |
| `Verif/Ipc/*` | `ipc/common`, `ipc/nodepart`, `ipc/arwenpart` |
| `Verif/Config/*` | `config/{gasCost,gasSchedule}.go`, change of the gas schedule in the host, the texts of `arwenmandos/gasSchedules/tomlfiles.go` |
| `Verif/Mandos/*` | `mandos-go/orderedjson`, `mandos-go/orderedjson2kast`, `mandos-go/expression/{interpreter,reconstructor}`, `mandos-go/json/{model,parse,write}` for scenarios |
| `Verif/World/*` | `mock/world` (accounts, snapshots, output application), the step executor of `arwenmandos`, `mandos-go/controller` and `mandos-go/fileresolver` (files and directories of scenarios and tests), `cmd/test` |
| `Verif/Fixture.lean` | a concrete node, schedule and contract builder for the non-vacuity examples and witnesses |
| `Verif/Spec/*` | the independent specifications: what a property says, in terms of inputs, outputs, states and traces |
| `Verif/Props/*` | the property theorems, one file per group, with non-vacuity examples and witnesses of violations |

## 3. Trusted base

* Lean 4 kernel; axioms allowed: `propext`, `Classical.choice`, `Quot.sound` (checked with `#print axioms`, list in section 6).
  Nothing is imported from Mathlib.
* The reading of the Go code: each definition cites the file and lines it models, and says where it simplifies.
* Not modelled (assumed): the Go runtime and memory allocation failures, the C Wasmer library beyond the interface described above
  (execution of opcodes, metering instrumentation, compilation; an execution stops when the used points exceed the limit),
  the arithmetic of cryptographic libraries (a parameter of C80), JSON/gob marshalling inside the standard library (an invertible codec where used), `mapstructure`,
  `strconv.Quote`, `big.Int.SetString` beyond its documented syntax, logging, OS pipes (a byte stream), timing.
* External libraries given by their documented behaviour: `twos-complement` (`ToBytes`, `FromBytes`, `ToBytesOfLength`,
  `CopyAlignRight` are defined in the model), `vmcommon` types and `CodeMetadata` bits.
* Parameters (theorems hold for every choice): the blockchain hook and its state, the map from code to modules, the behaviour of
  contracts, the gas schedule, hash functions, the built-in functions of the mock world (`Lib`), the file system, `filepath` and what the
  operating system says about paths (`FileSystem`, `Machine`).
* Model-only information: an instance carries the address it was started for and whether its code is new (`Inst.addr`, `newCode`,
  ghost fields: nothing in the model branches on them). Identities of instances may be reused after `hostInit`.
* Simplifications: use of a nil instance is a panic; `PrevTxHash` and the list of runtime errors kept for tracing are left out;
  `memLoad` reads the memory of the current instance in the state.
* Assumptions about the node or the schedule that appear as hypotheses of theorems, each a small definition in `Verif/Spec`:
  `OkBuiltins` (built-in functions without error answer code Ok), `FairBuiltins`, `PlainBuiltins`, `SteadyBuiltins`, `ChangesOnly`,
  `StillBuiltins`, `BalancesKept` (what built-in functions may change), `QuietNode`, `SilentNode` (the node's storage does not change
  by itself), `Solvent`, `FixedOwner`, `KnownNonce`, `HonestCode` (hash and code agree), `NewStaysNew`, `Deployable`
  (addresses for new contracts are free). Every use has an `example` that meets it.

## 4. Properties: what is modelled and how each is proved

| Id | Model | Proof |
|---|---|---|
| C01 | `math/overflow.go` on `UInt64/Int64/Int32` | arithmetic case analysis against `Nat`/`Int` clamping specifications |
| C02 | big-int context as a map from `Int32` handles | freshness of the probing loop (pigeonhole), frame lemma, induction over op list |
| C03 | `bigIntOps.go` on the context | refinement of each op to the integer operation, for all handle triples |
| C04 | two's-complement encoding/decoding | round trip by induction on byte length; minimality |
| C05 | push/pop of the big-int context in nested calls | stack-discipline invariant of the host (C23) specialised to big ints |
| C06 | storage context over output accounts and hook | refinement to an abstract map `Addr → Key → Value` over arbitrary op lists |
| C07 | same | frame theorem |
| C08 | same, protection flag | invariant over op lists and over every contract program |
| C09 | `CustomStorageKey` | expected to be violated (the "prefix" is appended as a suffix): negation with witness; partial theorem for the keys that are covered |
| C10 | `SetStorage` gas | decision-table theorem against an independent cost specification |
| C11 | read-only flag in host + API | violated for nested read-only calls (flag reset to false): witness; partial theorem for programs without nested read-only calls |
| C12 | metering + runtime points | relation preserved by all primitives; end-to-end bound for top-level runs; for single API calls the counter of the calling instance is followed through the nested calls (Host/Points, Host/ApiGas); violated by deployments (witness) |
| C13 | `UpdateGasStateOnSuccess`, `checkGas` | arithmetic over sums; exact statement of what the check enforces |
| C14 | `CreateVMOutputInCaseOfError` at each top-level exit | case analysis of the top-level functions |
| C15 | output accounts' balance deltas | sum invariant over all primitives, nested calls, merges; witness for failed deployment over a credited address |
| C16 | `TransferValueOnly` | invariant: visible balance ≥ 0 |
| C17 | push/pop of contexts | equality of the restored contexts; witness for `codeUpdates` |
| C18 | merge functions | prefix lemmas; invariant "snapshot ≤ active" |
| C19 | nonces | relation counting successful deployments, carried through nested calls and merges; witnesses before version 3 and for accounts created in the transaction |
| C20 | `resolveReturnCodeFromError` | refinement to a priority table on wrapped errors |
| C21 | `MemLoad/MemStore` | exact characterisation on `Int32` |
| C22 | instance stack | invariant; fuel of the interpreter proved sufficient |
| C23 | all context stacks | relation preserved by every primitive and nested call |
| C24 | entry checks | case analysis |
| C25 | validator | characterisation of accepted names and modules |
| C26 | upgrade | code of a target changes only under the permission predicate |
| C27 | `CreateNewContract` | case analysis + rollback |
| C28 | async locking | arithmetic |
| C29 | callback input; groups of calls | characterisation of arguments; what runs, in order, as a relation (`Served`) by induction over the groups |
| C30 | `processCallbackStack` | violated (list is not saved back); witness; partial for a single pending call |
| C31 | `setupAsyncCallsGas` | sum bound by induction |
| C32 | hex/`@` call data | round trip |
| C33 | `WriteLog` | append characterisation |
| C34 | folds over maps | permutation invariance; witness for order-dependent places |
| C35 | frames | round trip on concatenated frames with arbitrary suffix; truncation gives error |
| C36 | messenger nonces | two-party state machine, induction over schedules |
| C37 | serializable VMOutput | round trip under key agreement |
| C38 | message kinds | finite table; expected violated (range misses five kinds) |
| C39 | ordered JSON | round trip by induction on trees |
| C40, C41 | expression interpreter | round trips; range characterisation |
| C42 | mock accounts adapter | violated for balances/nonces/new accounts; witness + partial for storage |
| C43 | gas config | characterisation |
| C44 | helpers | round trips |
| C45 | error wrapping | induction over wrapping sequences |
| C46 | host state across transactions | the state after `InitState` of a host that has finished its transactions equals that of a fresh host up to snapshots left by panics and the size of the last loaded code (`hostInit_idle`); nothing reads the snapshots below the ones it pushed (`Host/Blind.lean`, through the whole API); calls set that size before using it (`c46_call_partial`, `c46_history_partial`); deployments do not (`c46_neg`); warm instances are left out |
| C47 | compiled-code cache, warm instance | witness; partial under agreement of hash and code |
| C48 | refunds | witness for loss in merge; partial for runs without nested calls |
| C49 | mock world applying the output accounts (`updateAccounts`), blockchain/storage reads | the reads at the end of the run and the applied world are both functions of the final output accounts and the chain; invariants on code, balances and nonces (C19, C47) make them agree; witness for accounts missing on the chain |
| C50 | deployment gas | witness (set instead of add) ; partial for a single deployment |
| C51 | scenario executor over the mock world | invariant: the oldest snapshot is the world before the step, or nothing stored differs from it; witnesses for the dropped snapshot and the shadowed error |
| C52 | scenario executor over the mock world | C15 plus sums over account maps; witness for failed deployments |
| C53 | `World/Check.lean`: the check steps; `World/Esdt.lean`: tokens in the storage | the loader of tokens is characterised by induction over the storage's entries, each check by the last expectation for its key; witnesses for owner, reserved keys and `"+"` among tokens |
| C54 | `World/Check.lean`: `checkResult` | element-wise characterisation of lists |
| C55 | `World/Convert.lean`: `convertAccount`, `setAccounts`, `checkState` | the last write under each key; composition with C53; witnesses for what is lost |
| C56 | `World/Esdt.lean`: keys, setters and getters | injectivity of keys for identifiers with a dash before the last six bytes; witness for other names |
| C57 | `World/Scenario.lean`: executor, steps and scenarios | `Passes`, a relation between states, against the executor, by mutual induction over steps; witness for included scenarios |
| C58 | `World/Scenario.lean`: `runScenarios` | two executors in step (C46), invariant between scenarios; witnesses for schedules and deployments |
| C59 | `Host/Exec.lean`: `transferESDT`, `executeEsdtTransfer`, `callBuiltin`, `afterBuiltin`, `addEsdtTransfer` | both functions run symbolically for any answer of the chain; the decision whether a call follows is characterised by a relation (`Follows`) |
| C60 | `Eei/Elrond.lean`: `exec`, `extractK`; `Host/Exec.lean` | memory read back exactly (`Holds`, `CallAt`); a guard in front of every API function of the called contract never acts (comparison of two runs, `Host/Compare.lean`) |
| C61 | `Eei/Elrond.lean`, `Eei/BigInt.lean`: getters, including balances and tokens (`Spec/Balances.lean`) | `Gives`, `Tells`, `Sets`, `Laid`: exact effect on memory, answer and handles, by running each function symbolically; witnesses for a call without value and for the name of the token |
| C62 | `Mandos/Scenario{Model,Parse,Write}.lean`: `mandos-go/json/{model,parse,write}` | per struct: what the parser can produce (invariant over the fields of a map), then reading what the writer puts, key by key, gives the struct back; `Spec/Rewrite.lean` lists what must hold for nothing to be left out; witnesses evaluated by the kernel for each omission |
| C63 | `Eei/{Elrond,BigInt}.lean` on top of `Ctx/Storage.lean`: the API functions for storage | run of each function from a state whose memory holds key and value (`Spec/Entries.lean`): exact answer, price, entries, and a frame that lets only noted entries and the refund differ; round trips by composing store and load |
| C64 | `Eei/*.lean` on top of `Ctx/{Output,Runtime}.lean` and `Host/Exec.lean`: the API functions with which contracts hand out results, logs, payments and requests | run of each function from a state whose memory holds what is laid out (`Spec/Requests.lean`): exact answer, price, and a frame that lets only the thing handed out differ |
| C65 | `Eei/BigInt.lean`, `Eei/Crypto.lean`: the API functions for numbers, hashes and signatures | run of each function from any state: exact number behind each handle by the relations of `Spec/Arith.lean` (`BinResult` …), exact price (`Spec/Numbers.lean`), and a frame |
| C66 | `Ctx/Metering.lean`: the record of gas per account, merged after nested calls; `Host/Exec.lean`: the ends of calls | a relation (ledger) between states that every step of an execution keeps, with the merges of the two kinds of calls; the final bookkeeping reports the record |
| C67 | `Ipc/Driver.lean`: the driver with its process (running, dead and not waited for, closed, without arguments, never started), operations with crashes and failed starts as parameters | every operation either closes the process, fails to start one, or is answered by a complete dialogue; induction over histories; the dialogue by C38 |
| C68 | `World/Debug.lean`: the debugger with its folder of files (paths, the JSON file of a world with its text keys, requests, the moment of a crash as a parameter) around the mock world and the host model | paths of plain names differ; texts survive JSON; what the host returns is what it applied (C25), a failed run returns nothing (C20); induction over histories |
| C69 | the whole API (`Eei/*.lean`) with the schedule's prices; `Spec/Price.lean` assigns each function its entry of the schedule | a lower bound of the instance's counter, followed through the program of each function and through nested calls (as for C12); induction over programs for runs |
| C70 | requests as programs of uninterrupted steps on the shared host, Go's `RWMutex` and a scheduler that picks any request (`Host/Parallel.lean`); the work of `GasScheduleChange` and of the entry points divided into steps, and any other division that does the same | invariants of all schedules: the mutex knows who is inside; what is done so far was done one after the other; only writers touch the schedule; requests can finish by induction over their steps |
| C71 | `Mandos/OldTest.lean` (parser, writer and conversion of the old format), `World/OldTest.lean` (execution) | files: as C62, per struct; execution: a test is a list of transaction steps and a check, so the induction over steps of C57 and C58 applies; conversion: the world after the setState step is the world of the test |
| C72 | instances carry the number of times they were destroyed (`State/Machine.lean`: `Inst.destroyed`, `Inst.clean`) | invariant over all steps of the host: the running instance and those on the stack are alive, all others were destroyed once, equal entries of the stack are neighbours (so that a pop never destroys an instance on which a caller waits); a host that checks this around every API function does the same |
| C73 | the parser of scenarios (`Mandos/ScenarioParse.lean`) on trees of the JSON parser (C39) | equivalence of the loops over keys with a description of the format key by key (`Spec/Reading.lean`), by induction over the keys of each kind of object; corollaries: one meaning, order of keys |
| C74 | files, resolvers, external steps and directories (`World/Files.lean`) over the parser (C73) and the executor (C57, C58); the file system, `filepath` and the expansion of patterns are parameters | conversions are equivalent to relations value by value; induction on the depth of includes one way, on the meaning of a file (`StepsAre`) the other; induction over the visited paths |
| C75 | old tests, their directories and the command (`World/Command.lean`) over the parser (C71, C73), the executor (C57, C71) and directories (C74); the operating system's answers about paths are parameters | reading and conversion are equivalent to relations; induction over tests and over the visited paths; case analysis of the command |
| C76 | the mock chain's answers about blocks (`World/Mock.lean`), the executor's steps (C57) | the blocks are an invariant of whatever a transaction can lead the chain to (`Reached`); API functions that do the same under an invariant can be exchanged (`runTx_asif`, by the comparison of hosts); induction over steps |
| C77 | the message with the settings, what of it is read, the start of the process (`Ipc/Launch.lean`), the driver of C67 | field by field, texts as in C68; the negations by case analysis and induction over the history |
| C78 | requests in progress as stages between the accesses to files, moves of the server in any order (`World/DebugServer.lean`), the debugger of C68 | invariant over all moves: the files are those that the answered requests would have left one after the other, except where a request in progress writes; the negations by schedules |
| C79 | the conversion (`Mandos/Kast.lean`), the parser of C39 | terms and their texts in the specification, by induction on the document; the text is decoded from the left for injectivity; the code by a relation between documents |
| C80 | `crypto` over the libraries as parameters (`Crypto/Signing.lean`), the API of C65 | the schemes as relations in the specification, the laws of a pairing as a structure; case analysis of the checks, linearity for what the signer makes, non-degeneracy for uniqueness |
| C81 | the table of imports (`Eei/Imports.lean`): `Append` over what `reflect` tells about a function, and the 122 registrations with the calls they make | the names and arguments of all calls in the specification; induction over the registrations, whose names are all different; the absence of groups as an invariant of the whole host, for the API over names |
| C82 | the wrappers of exported functions (`Eei/Exports.lean`) over a native instance that may answer anything; arguments of all Go types | induction over the arguments with the slots written so far, and over the exports with the two maps; the numbers that arrive as integers modulo the size of their type (`Spec/Exports.lean`); accepted contracts through `verifyModule` |
| C83 | the dump of the mock world (`World/Dump.lean`) over the loader of tokens, the reconstructor, the writer of scenarios and the printer of C39, C40, C55 and the rewriting of scenarios | the tree compared with a description of what has to be in it (`Spec/Dump.lean`); induction over the maps under construction, over the entries of the storage (each instance once) and over the accounts; reading back with the theorems for rewritten scenarios |
| C84 | flags, commands and requests of the debugger's program (`World/DebugCli.lean`) over the requests of C68 | the request compared with what the flags say (`Spec/DebugCli.lean`, tables of names written separately); induction over the flags given, with the fields of the arguments as a lens; the tables of flags by cases over the commands |
| C85 | the wrapper of the built-in functions in the mock world (`World/Builtins.lean`), the functions as parameters | accounts, transfers, tokens and name servers as relations (`Spec/Builtins.lean`); unfolding, the expressions of C40 for the addresses; concrete witnesses for what fails |
| C86 | the texts of the three schedules as data (`Config/Texts.lean`), their loading and choice (`World/Schedules.lean`), over the schedules of C43 | what a text says as a relation (`Spec/Schedules.lean`); induction over sections and costs; the texts are checked by evaluation (all names once, all costs there, none zero or too large), which covers them completely |
| C87 | the choice with the source of random numbers as a parameter (`World/Roulette.lean`), in machine integers | the number of draws that choose an outcome (`Spec/Roulette.lean`); induction over the weights: an outcome is chosen by the draws in its part of the sum; the same for events with probabilities (`World/Events.lean`), with the rounding of `float32` modelled exactly |
| C88 | the search for the program (`Ipc/Path.lean`), with the computer as a parameter | the right program as a relation (`Spec/Path.lean`); all cases of what the computer says |

## 5. Findings (code that violates a listed property)

Each row is a theorem with a concrete witness; its name starts with the property.

| Theorem | What goes wrong |
|---|---|
| `c06_stale_neg` | With a node that changes storage, C06 does not hold: after a built-in function has changed an own reserved entry on the chain, a load still answers the old value, while a load by address answers the new one. |
| `c09_forge` | Host entries are not protected: for any data of at least six bytes that does not start with `ARWEN@` (and is not in the protocol's name space), any contract can store any value as the host's entry for this data. |
| `c09_neg` | C09 does not hold: a contract can write the host's entry for a time lock. |
| `c11_neg` | C11 does not hold for all contracts: a contract that runs in read-only mode and makes a read-only call itself is no longer in read-only mode afterwards, and its store takes effect. |
| `c12_create_neg` | C12 fails for deployments: the initial cost of the new contract replaces the one of the contract that deploys it, so that a contract with a long code gets gas back by deploying one with a short code (`arwen/host/execution.go` `CreateNewContract`). |
| `c14_builtin_neg` | Without the assumption on built-in functions the property fails: the contract ends normally, the output has the code of the built-in function, and all effects are there. |
| `c15_neg` | Value can be destroyed: a contract sends 7 to the address at which it then deploys a contract; the deployment fails and the host drops the record of that account, with the 7. |
| `c17_builtin_neg` | C17 fails for built-in functions: the call fails (the contract run after the built-in function signals an error), the node is told to go back, but the log of the built-in function stays in the effects of the caller's transaction. |
| `c17_code_neg` | C17 fails for the set of updated codes. The only upgrade of 102 is in a call that fails; still the output reports code for 102 (its old code, with empty metadata and no deployer), while without that call it reports none. |
| `c18_neg` | Effects can get lost: a deployment that fails drops the record of the account at the new address, with the transfers and balance changes reported for it before. |
| `c19_neg` | **C19** fails before version 3 is enabled: when an account is in the output already, its nonce on the chain is not looked up. A contract with nonce 7 deploys two contracts, and its nonce is reported as 2. |
| `c19_new_neg` | **C19** fails for new contracts, also with version 3: a failing deployment by its creator takes away what is known about a new contract. The account writes a log after each successful deployment, there are two, but its nonce is reported as 1. |
| `c21_load_clamped_neg` | **C21 (sizes from 2 GiB on).** The end of a range is clamped to `2^31-1`: a memory of 2 GiB holding ones answers 0 for its last byte. |
| `c22_warm_neg` | C22 fails for the number of alive instances when the warm-instance feature is on: the instance kept for one contract is dropped without being released when another contract is compiled. Three calls that return at once leave three instances alive, with a limit of two. |
| `c25_neg` | C25 fails for deployments made by contracts: they are not validated. A contract deploys code that exports the name of a built-in function. |
| `c25_warm_neg` | C25 fails for upgrades of a contract whose warm instance is kept: the new code is not validated. |
| `c26_neg` | C26 fails in substance: a contract that does not own the target upgrades it when the owner calls it for any purpose, by a request in the name of its caller. |
| `c27_neg` | C27 fails when `init` makes the creator deploy again: the nonce is raised at the end only, so that both contracts get the same address, and the successful deployment reports other code than the supplied one. |
| `c28_neg` | C28 fails for callbacks that arrive from another shard: the gas locked for them is added to the gas they have to account for, but not to the gas they can use, so the account never balances and the callback fails. |
| `c29_group_neg` | C29 fails for groups when the destination fails: no callback runs at all. The destination's failed execution has no record of calls of its own, and looking it up panics: the transaction of the caller ends without any output, instead of calling the callback named for failures. The same transaction with a destination that succeeds calls back. (No contract of this version can make groups of calls: see C81.) |
| `c30_last_neg` | Even the callback of the only pending call fails: the notice for the original caller carries all the gas that is left, but this gas also stays with the contract, and the final check of the gas notices. So the record stays and the original caller is not told. (No contract of this version can make groups of calls: see C81.) |
| `c30_local_neg` | If the original caller can be called from here, the last callback always breaks the run off. (No contract of this version can make groups of calls: see C81.) |
| `c30_more` | C30 is violated: A callback that is not the last one leaves the record as it is - its call is not removed, so the record of two or more calls is never removed and the original caller never told, whatever callbacks arrive. |
| `c30_neg` | The callbacks of both pending calls arrive, and both transactions succeed; the record is still there with both calls, and the original caller was not told. (No contract of this version can make groups of calls: see C81.) |
| `c34_callback_neg` | Which callback answers a call depends on the order: two groups that call the same contract. (No contract of this version can make groups of calls: see C81.) |
| `c34_error_neg` | The kind of error depends on the order: an overflow is noticed only if the large request comes last. |
| `c35_long_neg` | The bound on the length is needed: of a message of exactly 4 GiB the receiver sees a message with no contents, and takes the contents for the messages that follow. |
| `c36_stale_neg` | Messages are told apart within one dialogue only: a first message of an earlier dialogue that arrives late is accepted after a reset. |
| `c37_neg` | Agreement of keys and addresses is needed: of two accounts with one address only one arrives, and which one depends on the order of iteration. |
| `c38_empty_neg` | **An error without a text is taken for success.** |
| `c38_gas_neg` | **A change of the gas schedule never reaches the virtual machine over the pipe.** The receiver has no type for this request, so the Arwen process panics on it, and the node finds the process gone. |
| `c38_neg` | **C38 is false in general.** Whatever the node and its hook, a question about a built-in function, a snapshot, a revert or the clearing of compiled code ends the node's loop with an error: the node does not recognise it as a hook call, although it has a replier for it. |
| `c38_snapshot_neg` | So every run of the virtual machine that takes a snapshot of the node's state first, as every nested call does, fails with a critical error over the pipe, whatever it does afterwards. |
| `c39_backslash_neg` | **A string that ends with an escaped backslash is not parsed**: `"\\"`. |
| `c39_bool_neg` | **A bare boolean is printed but not parsed**, because nothing ends it; with a space after it it is. |
| `c39_comma_neg` | **An element after a missing comma is dropped**: `["a" "b"]` is read as `["a"]`. |
| `c39_twice_neg` | **The second of two equal keys is dropped**: `{"a":"x","a":"y"}`. |
| `c40_bar_neg` | **A text with `\|` does not evaluate back**: what follows is read as another expression. |
| `c40_code_neg` | **Code of more than ten bytes does not evaluate back**: it is cut and ends with three dots. |
| `c40_sc_neg` | **Contract addresses in the shards 0 to 15 do not evaluate back**: the shard is printed with one digit and read with two. |
| `c40_unknown_neg` | **Values without a hint do not evaluate back**, nor do addresses of another length than 32: the remark in parentheses makes the text invalid. |
| `c41_bare_neg` | **`iN:` without a sign accepts numbers outside the signed range**: `i8:255` evaluates to the byte that stands for −1. |
| `c41_binary_neg` | **A minus before binary digits has no effect**: `u8:0b-101` evaluates to 5. |
| `c41_empty_neg` | **`iN:` without a number panics.** |
| `c41_zeros_neg` | **Hexadecimal digits are not measured by their value**: `u8:0x0001` is rejected although it stands for 1. |
| `c42_again_neg` | C42 fails the second time: going back to a snapshot also drops it. A world in which all values were written by built-in functions is brought back to what the VM asked for, something is written in the same way, the VM asks again and goes back again, at once: the storage is not what it was when the VM asked. |
| `c42_ask_neg` | C42 fails: asking for a snapshot takes none. The value written before asking is lost when going back. |
| `c42_balance_neg` | C42 fails: a balance changed since the snapshot is not restored. |
| `c42_code_neg` | C42 fails: code changed since the snapshot is not restored. |
| `c42_deleted_neg` | C42 fails: an account deleted since the snapshot does not come back. |
| `c42_new_neg` | C42 fails: with an account made since the snapshot, going back reports an error, and the stored value of an account that comes later in the order of the iteration is not restored. |
| `c42_nonce_neg` | C42 fails: a nonce changed since the snapshot is not restored. |
| `c43_case_neg` | **The cost charged may depend on the iteration order** if a schedule spells a name twice in wrong case. |
| `c43_reported_neg` | **The host reports the rejected schedule as its current one.** |
| `c43_wide_neg` | **An opcode cost of 2^32 + 1 is charged as 1.** |
| `c45_single_layer_neg` | **C45 is violated for a single layer**: `errors.Is` on `WrapError(err)` panics for every error it does not contain. |
| `c46_neg` | C46 fails for deployments: the gas locked for the callback of an asynchronous call made by the init function depends on the size of the code that the host loaded last, in an earlier transaction. Here the deployment succeeds on a fresh host, and fails on one that processed a call of a contract with a long code before. |
| `c47_neg` | If a contract upgrades another one and calls it, the compiled form of the new code is kept under the hash of the old code, even if the transaction fails: later calls run code that was never deployed. |
| `c47_warm_neg` | With warm instances, a contract that was called and then upgraded by a transaction goes on to run its old code. |
| `c48_neg` | C48 does not hold: a contract clears an entry and then calls another contract, which does nothing. The entry is reported as cleared, but no refund. |
| `c49_neg` | An account that was not on the chain is paid. At the end of the transaction contracts are told that it has nothing; it has 7 after the output is applied. |
| `c50_neg` | C50 fails for two deployments in one call: the second price replaces the first one. A contract deploys two codes, both are reported, and more gas is left than the total gas without the prices of both. |
| `c51_again_neg` | The tokens that a contract sends stay with their recipient although the transaction fails: when the call of the third contract failed the world went back to the only snapshot and dropped it, so that none was left for the transaction. |
| `c51_esdt_neg` | A failed token transfer is committed: the error is in a variable that the deferred function does not see. |
| `c51_neg` | C51 is false in general, also with built-in functions that only store values. |
| `c52_neg` | The value that a contract sends to the address of a contract that it then fails to deploy is destroyed. The executor notices it, reports an error, and commits the transaction nevertheless. |
| `c53_more_neg` | `"+"` among the tokens is read but has no effect: a check that allows further tokens fails because of one. |
| `c53_owner_neg` | The owner is not looked at: a check for another owner passes. |
| `c53_reserved_neg` | What is written down about a reserved key is not looked at: a check for another value passes. |
| `c55_ambiguous_neg` | Tokens that share an entry: the second takes the place of the first. |
| `c55_fungible_neg` | The details of an instance with nonce 0 are set but not shown. |
| `c55_lastNonce_neg` | The last nonce of a token without instances is not set: the check for the same content fails. |
| `c55_reserved_neg` | Entries of the storage with reserved keys are taken for tokens: setting one makes the check for the same content fail. |
| `c55_royalties_neg` | Royalties are cut to 32 bits (only the parser keeps them below 10001). |
| `c55_zero_neg` | The details of an instance of which there is nothing are not found again. |
| `c56_keys_neg` | Tokens with other names can share an entry: instance 66 of the token `A` is where the fungible token `AB` is. |
| `c57_external_neg` | C57 fails for scenarios that include others: whether gas is checked is then decided by the scenario that was included last. Here a scenario that fails because the gas is not what it expects passes when it includes, before, a scenario that does nothing and does not check gas. |
| `c58_deploy_neg` | C58 fails for deployments: a scenario that passes alone fails after another one that passes, because the gas locked for the callback of an asynchronous call in an init function depends on the size of the code that was loaded last. |
| `c58_schedule_neg` | C58 fails for scenarios with different gas schedules: the executor loads a schedule only once, and runs all later scenarios under it. Here a scenario that passes alone fails after another one that passes. |
| `c60_unreadable_neg` | An error while the arguments are read is dropped: a contract that points outside its memory for the lengths of two arguments is not stopped. The call is made without arguments, and succeeds. |
| `c61_balance_neg` | `getExternalBalance` does not tell how many bytes it has written, and it does not clear the rest of the 32 bytes: a contract that has asked for a larger balance before reads a wrong one. |
| `c61_call_value_neg` | A contract that asks for the value of a call without value gets no zeros: `callValue` answers 0 and leaves in the memory what was there (an empty string is not padded). A contract that trusts the 32 bytes reads an old value. |
| `c61_last_nonce_neg` | `getCurrentESDTNFTNonce` answers 0 if the token lies outside the memory, and the execution goes on. |
| `c61_results_neg` | A negative index of a result panics inside the virtual machine. |
| `c61_token_name_neg` | `getCallValueTokenName` never delivers the name of the token: it is copied into an empty slice. The memory stays as it is. |
| `c62_accounts_neg` | a `checkState` step without accounts is accepted, and writing it dereferences a nil pointer |
| `c62_amount_neg` | a check of nothing but the balance of a token becomes a plain amount, which also expects that there is no creator: a check that was not made before |
| `c62_arguments_neg` | the arguments of a reward are accepted and lost |
| `c62_creator_neg` | a single instance without nonce is written as a plain amount: its creator is lost |
| `c62_expect_neg` | the result of a transaction given before the transaction makes the parser dereference a nil pointer, instead of being rejected |
| `c62_log_neg` | a log entry without data is accepted, and writing it dereferences a nil pointer |
| `c62_more_neg` | that other tokens are allowed is lost when no token is listed |
| `c62_nonce_neg` | the nonce of a transaction is never written |
| `c62_sender_neg` | a call without a sender is accepted and written with an empty sender, which is rejected |
| `c62_shard_neg` | the shard of an account is never written, so an account of shard 1 is put into shard 0 by the rewritten file |
| `c62_tx_neg` | a transaction step without its transaction is accepted, and writing it dereferences a nil pointer |
| `c62_uri_neg` | a check of the URI of a token is written with the creator, so another URI is expected by the rewritten file |
| `c62_zero_neg` | the empty text is accepted for the balance zero of an instance, and lost: the balance is not set at all by the rewritten file |
| `c63_lock_neg` | A lock with a time before 1970 holds although that time is over: the sign is lost, and the lock holds until as long after 1970. |
| `c64_free_neg` | Calls in groups cost nothing when they are created, however long their data. (No contract of this version can make groups of calls: see C81.) |
| `c64_limit_neg` | A contract with 10000 gas left gives a billion of gas to the call it sends to another shard with `transferValueExecute`; it is not charged. |
| `c64_unpayable_neg` | A contract that is not payable is paid nevertheless: `transferValue` does not look. |
| `c64_upgrade_neg` | An upgrade that cannot be paid is not registered, but the contract that asked for it is answered 0 and goes on. |
| `c65_word_neg` | A number that does not fit in 64 bits is cut off by `bigIntGetInt64`, and the execution goes on. |
| `c66_neg` | The gas that a contract has sent to another shard is charged to the contracts that it calls afterwards: the same call of 101 is reported as using 10 gas, or, after 100 has sent 10 gas to another shard, as using none. |
| `c67_restart_neg` | **A failed restart makes the node panic.** If the process is closed and the executable cannot be started, the request gets its critical error, and the next operation, whatever it is, dereferences the missing process. |
| `c67_zombie_neg` | **A process that died between two requests is not replaced in time.** The driver takes the zombie for a running process, so the next call fails although a new process could be started; only the call after it is served by a new process. |
| `c68_deploy_neg` | Two deployments by the same account: the nonce of the account does not grow, so the second contract takes the place of the first one, which is lost; what the first one stored belongs to the second one now. |
| `c68_key_neg` | A contract stores a value under the key with the byte 255. The next request finds the value under a different key. |
| `c68_outcome_neg` | A query asks for its outcome to be kept under a name with folders, which overwrites the world: afterwards it has no accounts, and making one ends with a panic. |
| `c68_stop_neg` | The program is ended while it writes the world: the world of all requests before is lost. |
| `c68_text_neg` | An account is made at an address of 32 bytes 255. The reply says so, but the next request does not find the account: addresses are the keys of a JSON object, and bytes that are not well-formed UTF-8 are replaced in them. |
| `c68_value_neg` | A call with value: the contract receives 5, but alice, who sends them, still has all the 10, so that there is more value in the world than before. |
| `c69_free_neg` | Calls can be added to groups of asynchronous calls for nothing, whatever the schedule says, so that their number is not bounded by the gas (`elrondei.go` 1267-1326). (No contract of this version can make groups of calls: see C81.) |
| `c69_named_neg` | The price that the schedule names for additions is not charged: all operations but subtraction, multiplication and `TDiv` are charged as subtractions (`bigIntOps.go` 594, 651, 669, 687, 705, 717, 757, 775, 793, 811, 829, 848). |
| `c70_hosts_neg` | The prices of instructions are global in the process, and another host has another mutex: its change of the schedule changes the prices of instructions for this host while a contract runs on it, and they no longer belong to the schedule of this host. |
| `c70_overlap_neg` | The mutex lets two executions in at the same time, and they share one state: the call of a contract that succeeds if it comes before or after the other call fails when they overlap, because it goes on with the other one's input. |
| `c70_report_neg` | While a change is at work, `GetGasScheduleMap`, which does not take the lock, already reports the new schedule, although the prices in force are still the old ones. |
| `c71_hash_neg` | The first transaction of a test has number 0, that of its conversion number 1, and the numbers decide the hashes of the transactions, which contracts can see. Here the test passes and its conversion fails. |
| `c71_header_neg` | an old test without the header of a block is accepted, and writing it dereferences a nil pointer |
| `c71_nonce_neg` | the nonce of a transaction of an old test is lost when the converted scenario is written |
| `c71_number_neg` | the number of a block that is not given is zero in the rewritten file |
| `c71_panic_neg` | Without a final state a test passes all its checks and then panics. |
| `c71_post_neg` | an old test without a final state is accepted, and writing it dereferences a nil pointer |
| `c71_receiver_neg` | a call without a receiver is a deployment in the rewritten file |
| `c71_schedule_neg` | The schedule of a test is the one with which the executor was made; the conversion is run with the default one. Here the test passes and its conversion fails. |
| `c71_token_neg` | the token that a transaction of an old test transfers is never written |
| `c71_valid_neg` | The accounts of a test are not validated: here a contract has the address of a user. The test passes, and its conversion fails. |
| `c72_warm_neg` | C72 fails when the warm-instance feature is on: contract A runs in the instance that is kept warm and calls C, C calls A again, which runs in the same instance and calls B; B becomes the warm contract, so when the inner A returns its instance is destroyed, although the outer A still waits in it. The outer A runs on in the destroyed instance, which is destroyed a second time at the end. A host that checks the API functions panics there; the host without the check reports success. Without the warm instance every instance is destroyed once. |
| `c73_expect_neg` | the order of keys does matter in steps with transactions: the same step is read if the result comes after the transaction, and crashes the reader if it comes before |
| `c73_missing_neg` | nothing is required: a call without a sender, a receiver, a function or gas is accepted, and so is a step without its transaction |
| `c74_crash_neg` | a file that crashes takes the whole directory with it: there is no verdict about the files before and after it |
| `c74_hash_neg` | the hash of the log that a file may give is not checked: two files pass that are the same but for the hash |
| `c74_missing_neg` | a directory that does not exist, or that cannot be listed, passes: errors of the walk are ignored, and then nothing is run |
| `c75_header_neg` | The header of a block has no effect: its time, number and gas limit are read and then not used. Two files that differ in the time both pass. |
| `c75_link_neg` | The command succeeds for a symbolic link to a directory without running anything, even if it fails for a scenario in that directory, and for the directory itself. |
| `c76_hash_neg` | Asking for the hash of a block that is too old is answered with nothing, unless it is 2^63 or more blocks before the current one: then the virtual machine panics, since the distance is a negative number for the mock chain. |
| `c76_seed_neg` | In a scenario whose block before has no seed, a contract that asks for it makes the virtual machine panic. |
| `c77_neg` | **No process ever runs.** Whatever the settings are: a container of built-in functions cannot be read, and without one the process panics. |
| `c77_silent_neg` | **No request is ever answered.** The driver is made without an error, but whatever the node asks of it, for however long, it gets critical errors, no version and no results: none of the processes that the driver starts, with whatever settings, runs. |
| `c78_lost_neg` | Requests that change the same world at the same time: both are answered, both accounts are reported as made, and one is not there. In whichever order they are handled one after the other, both are there. |
| `c78_torn_neg` | A query that comes while another request writes its world finds the file empty, and is answered with an error. Before, and after, it is not. |
| `c79_escape_neg` | A text with a quote in it, `"a\"b"`, is written with the backslash that it has in the document, but as the text of a token it needs another two: read as the text of a token, it is `"a"b"`. |
| `c80_empty_neg` | **The empty message cannot be signed with BLS**: it has a signature in the scheme, but the signer refuses to make it and the check refuses to accept it. |
| `c82_documented_neg` | The full property fails: an `uint32` is documented to be accepted, but is refused for a parameter of type `i32`; so are floating point numbers for parameters of their types. |
| `c82_exact_neg` | The full property fails: an `int` that is too large for the parameter is accepted and arrives as another number. |
| `c82_message_neg` | The full property fails: errors are documented to name the function (`wasmer/instance.go` 45-48), but functions of any names get the same text. |
| `c83_address_neg` | **An account can be hidden by another**: the addresses `a_…_` in shard 1 and `a#1_…_` of contracts have the same name, and of the two accounts only the first is shown. |
| `c83_balance_neg` | **Debts look like balances**: only the absolute value is shown. |
| `c83_hidden_neg` | **Code, owner, name and the other fields of an account are not in the dump.** |
| `c83_storage_neg` | **A dump cannot be used as a scenario if there is anything in the storage of an account**: the notes for people make the texts invalid. |
| `c83_text_neg` | **A quotation mark in the storage spoils the printed text**: it is printed in the note as it is, and the text is not JSON any more. |
| `c83_uris_neg` | **Of several URIs of an instance only the first is shown.** |
| `c84_failed_neg` | The program ends with 0 although the virtual machine gave an error: a contract is deployed in the name of an address of two bytes, which comes to nothing. |
| `c84_outcome_neg` | The flag `outcome` must be given, but may be empty: then the program ends with 0 and keeps no outcome. |
| `c84_query_neg` | No command asks for a query that sends a value or sets a price for gas, which the server of the debugger takes: the command `query` has no flags for them. |
| `c85_dns_neg` | The last name server, `sc:dns#ff`, is not among them: there are 256 expressions of the form, the list has 255 addresses. |
| `c85_missing_neg` | A call of a built-in function whose caller or recipient has no account is not answered at all: the program panics, also when there is no function of that name. So does a question about a token of such an account. |
| `c86_builtin_neg` | The built-in functions keep the costs that they were made with: a scenario that chooses version 3 pays 1 for a transfer of tokens, although the text says 250000. |
| `c86_negative_neg` | Negative costs are accepted, as enormous ones. |
| `c87_negative_neg` | **Negative weights take from others.** With the weights 1, -1 and 2 two numbers may be drawn, and only one of them chooses the last outcome; the outcome of weight -1 is never chosen, and no error is reported. |
| `c87_overflow_neg` | **Large weights make the program panic.** The sum of two weights of 2^62 is negative. |
| `c87_tenths_neg` | **Probabilities whose sum is 1 can make the program panic.** Ten events of probability 0.1: their sum is rounded to a number greater than 1. |
| `c88_panic_neg` | **The node panics instead of taking the program that the environment names,** if it may not look into the current directory (`arwenPath.go` 48-53 looks at information that is not there). |
| `c88_search_neg` | **Another program is started than the one that was found.** The environment names the file `x`, which is there in the current directory; what is started is the `x` of a directory of `PATH`. |

Further observations made while modelling (visible in the definitions; no theorem of their own unless named):

* `transferValueExecute` to another shard neither bounds nor uses the gas limit it forwards (`Host/Exec.lean`, C13 row).
* `updateSCGasUsed` subtracts the gas of a contract's own transfers twice.
* Negative argument identifiers make the API index a slice out of range; the host recovers from the panic.
* A built-in-only or failing execution of an asynchronous call leads to a nil map panic in `processAsyncCall`; unparsable call data to a nil input.
* Sums `GasRemaining + GasLocked` are not checked for overflow.
* `extractIndirectContractCallArguments` ignores an error; `numArguments*4` can overflow in 32 bits; `getCallValueTokenName` is always empty.
* `MemLoadMultiple` does not check the running offset; `bigIntShl` computes before the gas is checked.
* `upgradeContract` of the API ignores the error of the upgrade; `bigIntStorageStoreUnsigned` loses the sign; `bigIntNot` is `−a−1`.
* `writeLog` sums lengths in 32 bits; `getESDTTokenData` panics on a nil token; `delegateExecution` transfers the value again; merging accounts overwrites `GasUsed`.
* With warm instances a contract calling itself loses the record of the gas it has spent.
* After a panic the deferred functions run with a nil error and the stack of state snapshots keeps its entry.
* A failing built-in function in `ExecuteOnDestContext` builds the error output on the caller's contexts.
* A call that fails before `execute` uses gas consumes none of the gas provided for it.
* A top-level upgrade does not check the owner; a top-level deployment does not check that the address is free.
* `callSCMethodIndirect` has no final gas check; `setupAsyncCallsGas` limits are ignored in the same shard.
* A failed execution after an ESDT transfer reverts the node but keeps the transfer, logs and gas in the output.
* `executeReadOnly` pays the call value a second time.
* `setStorageLock` with a key starting with `ARWEN@` writes under the protected prefix.
* `finishSame` merges although the final gas check failed.
* A cross-shard callback named `init` is run without the check for `init`.
* The validator accepts names that begin with a digit.
* `burn` may push the points above 2^63−1; `setPointsUsed` clamps at 2^63−1.
* A callback is not run when the remaining and locked gas do not exceed the handover price; the value of a callback is not transferred in one branch.
* IPC: a `%` in an error text is mangled; `RevertToSnapshot` of the gateway ignores the error of the response; a time limit of exactly 0 waits forever.
* Mock world: `UpdateWorldStateBefore` raises the nonce also when it fails; `scQuery` keeps its changes; generated addresses use 17 bytes of the creator and the nonce modulo 256.
* Code taken from the chain for an address left in the set of updated codes by a failed nested upgrade is reported as new code with other metadata.
* Scenario writer: an account's user name or owner with an empty value, `"*"` for creator, hash, URIs or attributes of a checked token, an entry of `newAddresses` without addresses (written as `""` and then rejected), and a single token instance without any field next to roles are lost when a scenario file is rewritten.
* `setStorageLock` drops the sign of a negative time (c63_lock_neg). Time locks are advisory: no store looks at them.
* `createAsyncCall` and `setAsyncContextCallback` charge nothing; the gas limit of `upgradeContract` is only checked, not used; `getExternalBalance` stores the balance without padding and answers 0, so that the contract cannot tell its length.
* Arithmetic is charged also for the size of the number that is overwritten; subtraction, remainder and other operations share one entry of the price list. `bigIntGetESDTExternalBalance` is charged twice (for both balance functions).
* A secp256k1 signature is as long as its second byte says; the first byte is not looked at.
* `getGasUsedByAllOtherAccounts` counts the gas of all transfers reported so far, also of those made by the callers: after a transfer of gas to another shard a nested call is charged that much less, and fails when it spends less than that (c66_neg).
* The driver of the Arwen process looks for a dead process with signal 0, which a zombie still takes: a process that died by itself is only replaced after one more failed request (c67_zombie_neg). When the executable cannot be started, `command.Process` stays nil and the next operation panics (c67_restart_neg). The node holds both ends of the pipes, so it notices a dead process only when its time is over; without a time limit it waits for ever. `Close` does not take the mutex.
* The debugger stores addresses and storage keys as the keys of JSON objects: bytes that are not well-formed UTF-8 are replaced by U+FFFD, so the accounts and values are not found again (c68_text_neg, c68_key_neg). Its files are written in place (c68_stop_neg); the name of an outcome or a world may contain `..` (c68_outcome_neg); it never raises the nonce of the deployer, so a second deployment replaces the first one (c68_deploy_neg), and does not take a transaction's value from its sender (c68_value_neg).
* The prices that the gas schedule names for BigIntAdd, TMod, EDiv, EMod, Abs, Neg, Not, And, Or, Xor, Shr, Shl and SetInt64 are never charged: these operations are charged as BigIntSub (c69_named_neg). createAsyncCall and setAsyncContextCallback charge nothing (c69_free_neg).
* RunSmartContractCall and RunSmartContractCreate take the host's mutex only for reading: parallel calls enter together and overwrite each other's input, so one caller can get the outcome of another's request (c70_overlap_neg). SetOpcodeCosts is global: a second host in the process changes the prices of instructions for running contracts of the first (c70_hosts_neg).
* Tests in the old format: a test without block header or final state is accepted and makes the writer, and the executor, panic (c71_header_neg, c71_post_neg, c71_panic_neg); a transaction's token is never written (c71_token_neg); accounts are not validated (c71_valid_neg); no gas schedule is loaded (c71_schedule_neg); transactions count from 0 in a test but from 1 in its conversion, which changes their hashes (c71_hash_neg).
* Warm instances: when a contract is entered again in its warm instance and a contract compiled for the first time becomes the warm one meanwhile, the instance is destroyed while the outer call still waits in it, used after that, and destroyed a second time (c72_warm_neg).
* The parser of scenarios requires no keys: a call without a sender, a receiver or a function, and a step without its transaction, are accepted (c73_missing_neg). The keys of a transaction step are read in order, and an `expect` before the `tx` crashes the reader (c73_expect_neg).
* A directory of scenarios that does not exist, or a part of it that cannot be listed, passes silently, because the errors of `filepath.Walk` are ignored (c74_missing_neg). A `checkState` step without accounts crashes the whole run (c74_crash_neg). The hash of the log that a scenario may expect is never compared (c74_hash_neg).
* The command that runs tests reports success for a symbolic link to a directory of scenarios without running any of them, because the link is followed when the argument is looked up and not when the directory is walked (c75_link_neg). The headers of the blocks of old tests have no effect (c75_header_neg).
* In a scenario that describes a block without a random seed, a contract that asks for the seed makes the virtual machine panic (c76_seed_neg); so does asking the mock chain for the hash of a block 2^63 or more before the current one (c76_hash_neg).
* The Arwen process cannot be started: the container of built-in functions is part of the settings that are sent to it as JSON; a container cannot be read back, because the field has an interface type, and without one `NewReservedFunctions` dereferences nil. `NewArwenDriver` nevertheless reports success, and every request then ends with a critical error (c77_neg, c77_silent_neg). The source says so in a comment, and the tests of the driver are skipped.
* The debugger's server handles requests in parallel without any lock. Of two requests that change the same world at the same time both are answered with success, and the changes of one are lost (c78_lost_neg); a query that comes while its world is being written finds an empty file and fails (c78_torn_neg).
* Tests that are converted for the K framework: texts are written into tokens without escaping, so that a text with an escaped quote or a backslash in it becomes a different, or an ill-formed, token (c79_escape_neg).
* BLS signatures of the empty message are never accepted: a contract that checks one is answered -1, while Ed25519 and Secp256k1 signatures of the empty message are accepted (c80_empty_neg).
* `createAsyncCall` and `setAsyncContextCallback` are written but not registered (`elrondei.go` 179-187), so no contract of this version can have groups of asynchronous calls (c81_reach, c81_groups): the findings about groups (c29_group_neg, c30_*, c34_callback_neg, c64_free_neg, c69_free_neg) concern code that waits for these two lines.
* `wasmer/function_wrapper_helpers.go`: `uint32` arguments are documented (`instance.go` 67-72) but refused for `i32` parameters (c82_documented_neg); `int` and `uint` arguments are cut to 32 bits without an error (c82_exact_neg); errors contain a literal `%s` where the name of the function is documented to be (c82_message_neg).
* `arwenmandos/stepDumpWorld.go`: a dump leaves out code, owner and username and all URIs but the first (c83_hidden_neg, c83_uris_neg), cannot be read as a scenario once any account has storage, although it is written in that format (c83_storage_neg), is not valid JSON if a value contains a quotation mark (c83_text_neg), and can hide an account behind another whose address has the same name (c83_address_neg).
* `cmd/arwendebug`: the program ends with 0 although the execution failed (c84_failed_neg); queries with a value or a gas price, which the server takes, cannot be made (c84_query_neg); `outcome` is required but may be empty, and then none is kept (c84_outcome_neg); `gas-limit` is optional but every command for a contract fails without it (c84_no_gas).
* `mock/world/worldDef.go` 104: `ComputeId` of an address without an account reads a field of a nil pointer and panics, so that a transfer of tokens to a new address ends the scenario runner (c85_missing_neg). `mock/world/dnsUtil.go` 9: 0xFF is taken for the number of addresses, so `sc:dns#ff` is not a name server (c85_dns_neg).
* `arwenmandos/exec.go` 104: a chosen gas schedule is not passed on to the built-in functions, which go on with the costs of the tests: a token transfer costs 1 in scenarios for version 3, where the file says 250000 (c86_builtin_neg). `gasScheduleLoad.go` 24: negative costs become enormous ones (c86_negative_neg). Versions 2 and 3 have the same costs for the virtual machine (c86_same).
* `weightedRoulette.go` 14-24: no weights, negative weights and weights with too large a sum are not checked (c87_none, c87_negative_neg, c87_overflow_neg).
* `ipc/nodepart/arwenPath.go` 48-53: `fileExists` uses the information of `os.Stat` although there may be another error than that the file is missing, and the node panics (c88_panic_neg). A value of ARWEN_PATH without a slash is checked in the current directory, but looked for in PATH when the process is started (c88_search_neg).

## 6. Axioms

Output of `#print axioms` for the 641 theorems named in the manifest.

**none** (8): `c56_keys_neg`, `c73_words`, `c84_names`, `c85_given`, `c85_missing_neg`, `c87_negative_neg`, `c87_overflow_neg`, `c87_tenths_neg`.

**propext** (26): `c29_tokens`, `c36_count`, `c36_reset`, `c36_stale_neg`, `c39_backslash_neg`, `c39_bool_neg`, `c39_comma_neg`, `c39_twice_neg`, `c43_applied`, `c43_kept`, `c43_new`, `c43_opcodes`, `c43_reported_neg`, `c43_used`, `c44_inverse`, `c45_layers`, `c79_escape_neg`, `c79_term_partial`, `c80_ed25519`, `c80_empty_neg`, `c82_exact_neg`, `c84_query_neg`, `c85_call`, `c85_refused`, `c88_panic_neg`, `c88_search_neg`.

**propext, Quot.sound** (247): `c01_mul_clamped`, `c01_mul_err`, `c01_sub_clamped`, `c03_cmp`, `c03_shift`, `c03_sign`, `c04_unsigned`, `c05_start`, `c05_values`, `c06_executions`, `c06_history`, `c06_load`, `c06_load_from`, `c06_stale_neg`, `c06_store`, `c06_tx`, `c07_step`, `c07_store`, `c08_protection`, `c08_store`, `c08_tx`, `c09_neg`, `c09_partial`, `c11_calls_partial`, `c11_neg`, `c12_create_neg`, `c14_builtin_neg`, `c14_tx`, `c15_neg`, `c15_transfer`, `c15_tx_partial`, `c16_balance`, `c16_output`, `c17_builtin_neg`, `c17_code_neg`, `c17_dest_partial`, `c17_same_partial`, `c18_api`, `c18_dest`, `c18_function`, `c18_neg`, `c18_point`, `c18_same`, `c18_tx`, `c19_neg`, `c19_new_neg`, `c19_told`, `c20_chain`, `c20_code`, `c20_output`, `c20_tx`, `c20_wrapped`, `c22_refused_dest`, `c22_refused_same`, `c22_warm_neg`, `c23_api`, `c23_dest`, `c23_function`, `c23_panic`, `c23_same`, `c24_api`, `c24_callback`, `c24_constructor`, `c24_dest`, `c24_same`, `c25_deploy`, `c25_name`, `c25_neg`, `c25_top`, `c25_tx_partial`, `c25_verify`, `c25_warm_neg`, `c26_dest`, `c26_neg`, `c26_same`, `c26_tx_partial`, `c27_neg`, `c27_upgrade`, `c28_atLeast`, `c28_neg`, `c28_restore`, `c29_group_neg`, `c29_round`, `c29_seen`, `c30_last_neg`, `c30_local_neg`, `c30_neg`, `c30_single_partial`, `c30_unexpected`, `c32_injective`, `c32_parsed_function_ok`, `c32_roundtrip`, `c33_atMost`, `c33_kept`, `c34_acc`, `c34_builtin`, `c34_merge`, `c34_pending`, `c36_in_step`, `c36_next`, `c36_only_next`, `c37_host`, `c37_map`, `c37_neg`, `c37_nil`, `c37_output`, `c38_answered_partial`, `c38_call_partial`, `c38_create_partial`, `c38_empty_neg`, `c38_gas_neg`, `c38_neg`, `c38_snapshot_neg`, `c38_state`, `c42_again_neg`, `c42_ask_neg`, `c42_balance_neg`, `c42_code_neg`, `c42_deleted_neg`, `c42_new_neg`, `c42_nonce_neg`, `c43_accepted`, `c43_apart`, `c43_complete`, `c43_missing`, `c43_priced`, `c43_prices`, `c43_zero`, `c45_is`, `c45_single_layer_neg`, `c46_neg`, `c47_cache_partial`, `c47_neg`, `c47_warm_neg`, `c48_neg`, `c48_same_partial`, `c49_neg`, `c50_neg`, `c51_again_neg`, `c51_esdt_neg`, `c51_neg`, `c52_neg`, `c53_more_neg`, `c53_owner_neg`, `c53_reserved_neg`, `c55_ambiguous_neg`, `c55_fungible_neg`, `c55_lastNonce_neg`, `c55_reserved_neg`, `c55_royalties_neg`, `c55_set`, `c55_zero_neg`, `c56`, `c56_keys`, `c56_kinds`, `c56_set`, `c57_external_neg`, `c58_deploy_neg`, `c58_schedule_neg`, `c59_refused`, `c60_seen`, `c60_seen_same`, `c60_unreadable_neg`, `c61_balance_neg`, `c61_call_value_neg`, `c61_last_nonce_neg`, `c61_results_neg`, `c61_token_name_neg`, `c64_free_neg`, `c64_limit_neg`, `c64_tokens_fungible`, `c64_unpayable_neg`, `c64_upgrade_neg`, `c65_bits`, `c65_word_neg`, `c66_call`, `c66_failed`, `c66_neg`, `c66_nested`, `c66_same`, `c66_tx`, `c67_restart_neg`, `c67_zombie_neg`, `c68_account`, `c68_deploy_neg`, `c68_key_neg`, `c68_others`, `c68_outcome`, `c68_outcome_neg`, `c68_query`, `c68_refused`, `c68_reply`, `c68_stop_neg`, `c68_stuck`, `c68_value_neg`, `c69_free_neg`, `c69_named_neg`, `c70_overlap_neg`, `c70_report_neg`, `c70_steps`, `c71_hash_neg`, `c71_panic_neg`, `c71_schedule_neg`, `c71_valid_neg`, `c72_no_use_after_partial`, `c72_once_partial`, `c72_start_partial`, `c72_warm_neg`, `c74_walk`, `c76_hash_neg`, `c76_seed_neg`, `c77_neg`, `c77_read`, `c77_silent_neg`, `c77_start`, `c78_lost_neg`, `c78_torn_neg`, `c80_key`, `c80_secp256k1`, `c81_append`, `c81_calls`, `c81_found`, `c81_imports`, `c81_reach`, `c81_reserved`, `c81_typed`, `c81_unique`, `c82_exact`, `c82_message_neg`, `c83_address_neg`, `c83_balance_neg`, `c83_hidden_neg`, `c83_text_neg`, `c83_uris_neg`, `c84_unknown`, `c85_balance`, `c85_names`, `c86_negative_neg`, `c86_panics`, `c86_read`, `c87_events_partial`, `c87_none`, `executeTx_snapshots`, `setAccounts_snapshots`, `shiftop_eval_iff`, `valid_nested`, `valid_reached`.

**propext, Classical.choice, Quot.sound** (360): `binop_eval_iff`, `c01_addInt32`, `c01_addInt64`, `c01_add_clamped`, `c01_add_err`, `c01_subInt`, `c02_history`, `c02_new`, `c03_binary`, `c03_unary`, `c04_api_roundtrip`, `c04_signed`, `c04_signed_minimal`, `c09_forge`, `c10_store`, `c11_partial`, `c12_api_partial`, `c12_run_partial`, `c12_tx`, `c13_tx`, `c15_no_creation`, `c16_transfer`, `c16_tx`, `c19_create_partial`, `c19_dest_partial`, `c19_run_partial`, `c19_same_partial`, `c19_tx_partial`, `c20_callback`, `c20_constructor`, `c20_invalid`, `c20_no_contract`, `c20_no_gas`, `c20_no_gas_code`, `c20_overrun`, `c20_signal`, `c20_stopped`, `c20_unknown`, `c21_host`, `c21_host_load`, `c21_load`, `c21_load_clamped_neg`, `c21_store`, `c21_store_load`, `c22_alive_bounded_partial`, `c22_all_released_partial`, `c22_history_partial`, `c22_terminates`, `c27_create`, `c27_failure`, `c27_success_partial`, `c28_register`, `c28_send`, `c29_back`, `c29_group`, `c29_here`, `c29_input`, `c29_one`, `c29_reply`, `c30_more`, `c31_assign`, `c31_sum`, `c33_writeEventLog`, `c33_writeLog`, `c34_callback_neg`, `c34_consumed`, `c34_error_neg`, `c34_others`, `c34_same`, `c34_setGas`, `c34_setup`, `c34_total`, `c35_long_neg`, `c35_roundtrip`, `c35_truncated`, `c39_again`, `c39_injective`, `c39_parsed`, `c39_roundtrip`, `c39_spaces`, `c40_address`, `c40_back_address_partial`, `c40_back_code_partial`, `c40_back_number_partial`, `c40_back_str_partial`, `c40_bar_neg`, `c40_biguint`, `c40_code_neg`, `c40_concat`, `c40_file`, `c40_fixed`, `c40_keccak`, `c40_nested`, `c40_number`, `c40_order`, `c40_sc_neg`, `c40_signed`, `c40_str`, `c40_tree`, `c40_unknown_neg`, `c41_bare_neg`, `c41_bare_partial`, `c41_binary_neg`, `c41_decimal`, `c41_empty_neg`, `c41_signed`, `c41_unsigned`, `c41_zeros_neg`, `c42_new_partial`, `c42_storage_partial`, `c42_vm_partial`, `c43_case_neg`, `c43_wide_neg`, `c44_leb128`, `c44_leb128_injective`, `c44_pad`, `c46_api_partial`, `c46_call_partial`, `c46_deploy_partial`, `c46_history_partial`, `c46_idle_partial`, `c47_partial`, `c48_function_partial`, `c49_account_partial`, `c49_nonce_partial`, `c49_prestate`, `c49_storage`, `c49_tx_partial`, `c50_create_partial`, `c50_upgrade_partial`, `c51_partial`, `c52_partial`, `c53_checked`, `c53_partial`, `c54`, `c55_partial`, `c57_partial`, `c58_partial`, `c59_builtin`, `c59_builtin_gas`, `c59_sent`, `c60_by_caller`, `c60_delegate`, `c60_dest`, `c60_other_shard`, `c60_read_only`, `c60_same`, `c61_address`, `c61_argument`, `c61_argument_length`, `c61_balance`, `c61_big_argument`, `c61_big_balance`, `c61_big_call_value`, `c61_block`, `c61_block_data`, `c61_call_value`, `c61_caller`, `c61_function`, `c61_gas_left`, `c61_int64`, `c61_last_nonce`, `c61_no_argument`, `c61_no_payment`, `c61_no_token`, `c61_num_arguments`, `c61_of_address`, `c61_owner`, `c61_results`, `c61_small_argument`, `c61_token`, `c61_token_balance`, `c61_token_data`, `c61_token_lengths`, `c61_tx_hash`, `c61_value_and_name`, `c62_accounts_neg`, `c62_amount_neg`, `c62_arguments_neg`, `c62_creator_neg`, `c62_expect_neg`, `c62_log_neg`, `c62_more_neg`, `c62_nonce_neg`, `c62_rewrite`, `c62_sender_neg`, `c62_shard_neg`, `c62_tx_neg`, `c62_uri_neg`, `c62_zero_neg`, `c63_again`, `c63_big_again`, `c63_big_load`, `c63_big_store`, `c63_int64_load`, `c63_int64_store`, `c63_load`, `c63_load_from`, `c63_load_length`, `c63_load_protocol`, `c63_lock`, `c63_lock_again`, `c63_lock_neg`, `c63_lock_time`, `c63_small_again`, `c63_small_load`, `c63_small_store`, `c63_store`, `c63_store_guarded`, `c63_store_read_only`, `c63_unlock`, `c64_async`, `c64_big_finish`, `c64_create`, `c64_deploy_from`, `c64_finish`, `c64_group_call`, `c64_group_callback`, `c64_int64`, `c64_log`, `c64_log_old`, `c64_pay`, `c64_pay_builtin`, `c64_pay_call`, `c64_pay_execute`, `c64_pay_execute_builtin`, `c64_small_finish`, `c64_tokens`, `c64_tokens_old`, `c64_upgrade`, `c64_upgrade_from`, `c65_binary`, `c65_bls`, `c65_compare`, `c65_ed25519`, `c65_get_bytes`, `c65_hash`, `c65_new`, `c65_secp256k1`, `c65_set_bytes`, `c65_shift`, `c65_unary`, `c65_word`, `c67_answer`, `c67_counters`, `c67_next`, `c67_recovery`, `c67_schedule`, `c67_service`, `c68_failed`, `c68_history`, `c68_lost`, `c68_next_partial`, `c68_stop_partial`, `c68_text_neg`, `c68_tidy`, `c69_count`, `c69_floor`, `c69_price_partial`, `c69_run_partial`, `c70_alone`, `c70_constant`, `c70_driver_partial`, `c70_ends`, `c70_finish`, `c70_hosts_neg`, `c70_order_partial`, `c70_turn`, `c70_whole`, `c71_converted`, `c71_converted_file`, `c71_file_partial`, `c71_header_neg`, `c71_nonce_neg`, `c71_number_neg`, `c71_post_neg`, `c71_receiver_neg`, `c71_rewrite`, `c71_test`, `c71_token_neg`, `c72_history_partial`, `c73_expect_neg`, `c73_missing_neg`, `c73_one`, `c73_order`, `c73_read`, `c74_alone_partial`, `c74_count`, `c74_crash_neg`, `c74_dir`, `c74_file`, `c74_hash_neg`, `c74_meaning_partial`, `c74_missing_neg`, `c74_one`, `c75_command`, `c75_each_partial`, `c75_header_neg`, `c75_link_neg`, `c75_one`, `c75_read`, `c75_test_alone_partial`, `c75_test_dir`, `c75_tests`, `c76_told`, `c77_settings_partial`, `c78_apart`, `c78_order_partial`, `c79_convert`, `c79_injective`, `c80_bls_partial`, `c80_contract_bls_partial`, `c80_contract_ed25519`, `c80_contract_hash`, `c80_contract_secp256k1`, `c80_signed`, `c80_unique`, `c81_groups`, `c82_accepted`, `c82_call`, `c82_documented_neg`, `c82_exports`, `c82_refused`, `c83_all_partial`, `c83_back_partial`, `c83_bytes`, `c83_dump`, `c83_storage_neg`, `c84_asks`, `c84_every_partial`, `c84_failed_neg`, `c84_no_gas`, `c84_one`, `c84_order`, `c84_outcome_neg`, `c84_refused`, `c84_request`, `c84_server`, `c84_session`, `c84_success`, `c85_direct`, `c85_dns_neg`, `c85_dns_partial`, `c85_panics`, `c85_token`, `c85_transfer`, `c86_accepted`, `c86_builtin_neg`, `c86_chosen`, `c86_loads`, `c86_new`, `c86_promised`, `c86_same`, `c87_one_partial`, `c87_weights_partial`, `c88_none_partial`, `c88_panics`, `c88_right_partial`, `c88_started`, `unop_eval_iff`.
