{"claims": [
  {"property": "C01", "status": "proved", "theorems": ["Arwen.Props.c01_add_clamped", "Arwen.Props.c01_sub_clamped", "Arwen.Props.c01_mul_clamped", "Arwen.Props.c01_add_err", "Arwen.Props.c01_mul_err", "Arwen.Props.c01_addInt32", "Arwen.Props.c01_addInt64", "Arwen.Props.c01_subInt"], "note": ""},
  {"property": "C02", "status": "proved", "theorems": ["Arwen.Props.c02_new", "Arwen.Props.c02_history"], "note": "With 2^32 live handles the code's probing loop does not end; the theorems assume fewer."},
  {"property": "C03", "status": "proved", "theorems": ["Arwen.Props.c03_binary", "Arwen.Props.c03_unary", "Arwen.Props.c03_shift", "Arwen.Props.c03_sign", "Arwen.Props.c03_cmp", "Arwen.Props.binop_eval_iff", "Arwen.Props.unop_eval_iff", "Arwen.Props.shiftop_eval_iff"], "note": ""},
  {"property": "C04", "status": "proved", "theorems": ["Arwen.Props.c04_signed", "Arwen.Props.c04_signed_minimal", "Arwen.Props.c04_unsigned", "Arwen.Props.c04_api_roundtrip"], "note": ""},
  {"property": "C05", "status": "proved", "theorems": ["Arwen.Props.c05_values", "Arwen.Props.c05_start"], "note": ""},
  {"property": "C06", "status": "proved", "theorems": ["Arwen.Props.c06_load", "Arwen.Props.c06_load_from", "Arwen.Props.c06_store", "Arwen.Props.c06_history", "Arwen.Props.c06_executions", "Arwen.Props.c06_tx", "Arwen.Props.c06_stale_neg"], "note": "c06_history covers arbitrary histories of loads, stores and nested calls; c06_executions and c06_tx derive such a history for whole executions over a node that leaves storage alone and an API without deployments. c06_stale_neg shows that a built-in function changing the chain makes loads stale."},
  {"property": "C07", "status": "proved", "theorems": ["Arwen.Props.c07_store", "Arwen.Props.c07_step"], "note": ""},
  {"property": "C08", "status": "proved", "theorems": ["Arwen.Props.c08_tx", "Arwen.Props.c08_store", "Arwen.Props.c08_protection"], "note": "Keys under which the host itself keeps locks and async data are excluded (see C09)."},
  {"property": "C09", "status": "partial", "theorems": ["Arwen.Props.c09_partial", "Arwen.Props.c09_forge", "Arwen.Props.c09_neg"], "note": "The code violates this property: the prefix is appended as a suffix, so the protection does not cover the entries (c09_forge for all data of at least six bytes, c09_neg). Only entries for data that itself starts with ARWEN@ are covered (c09_partial)."},
  {"property": "C10", "status": "proved", "theorems": ["Arwen.Props.c10_store"], "note": "Amounts are exact up to the largest gas amount an instance counts (2^63-1), refunds up to 2^63-1."},
  {"property": "C11", "status": "partial", "theorems": ["Arwen.Props.c11_calls_partial", "Arwen.Props.c11_partial", "Arwen.Props.c11_neg"], "note": "Proved for read-only calls whose callees make no read-only call themselves, on nodes whose built-in functions change no contract storage and report no logs; a nested read-only call ends read-only mode (c11_neg), and upgrades are not blocked."},
  {"property": "C12", "status": "partial", "theorems": ["Arwen.Props.c12_tx", "Arwen.Props.c12_api_partial", "Arwen.Props.c12_run_partial", "Arwen.Props.c12_create_neg", "Arwen.Props.valid_reached", "Arwen.Props.valid_nested"], "note": "Whole transactions: proved without conditions. Single API calls and runs of programs: proved for every function that deploys nothing, without warm instances, for at most 2^62-1 gas and built-ins that forward no more gas than they got; deployments can increase the gas left (c12_create_neg)."},
  {"property": "C13", "status": "proved", "theorems": ["Arwen.Props.c13_tx"], "note": "Amounts of 2^64-1 and more cannot be told apart by the saturating counters; the theorem is for smaller ones."},
  {"property": "C14", "status": "proved", "theorems": ["Arwen.Props.c14_tx", "Arwen.Props.c14_builtin_neg"], "note": "For every program, node and nesting; the node's built-in functions are assumed to answer with code Ok when they answer without error; c14_builtin_neg shows what happens otherwise."},
  {"property": "C15", "status": "partial", "theorems": ["Arwen.Props.c15_transfer", "Arwen.Props.c15_tx_partial", "Arwen.Props.c15_no_creation", "Arwen.Props.c15_neg"], "note": "Without deployments by contracts the value is conserved exactly; with them nothing is created but a failed deployment can destroy value (c15_neg). The node's built-in functions are assumed to conserve value themselves."},
  {"property": "C16", "status": "proved", "theorems": ["Arwen.Props.c16_balance", "Arwen.Props.c16_transfer", "Arwen.Props.c16_tx", "Arwen.Props.c16_output"], "note": "Assumes that the node's own balances are non-negative and that its built-in functions report no debits."},
  {"property": "C17", "status": "partial", "theorems": ["Arwen.Props.c17_dest_partial", "Arwen.Props.c17_same_partial", "Arwen.Props.c17_code_neg", "Arwen.Props.c17_builtin_neg"], "note": "Proved for calls of contracts on the destination and on the same context: effects, big integers and gas record are exactly as before and the node is told to revert. Violated by the code for calls of built-in functions (c17_builtin_neg) and for the set of code updates, which is kept outside the saved output (c17_code_neg)."},
  {"property": "C18", "status": "partial", "theorems": ["Arwen.Props.c18_function", "Arwen.Props.c18_api", "Arwen.Props.c18_dest", "Arwen.Props.c18_same", "Arwen.Props.c18_point", "Arwen.Props.c18_tx", "Arwen.Props.c18_neg"], "note": "Holds for every account that is not a possible address of a new contract; a failed deployment drops the record at the new address (c18_neg). The balance changes are covered by C15."},
  {"property": "C19", "status": "partial", "theorems": ["Arwen.Props.c19_told", "Arwen.Props.c19_run_partial", "Arwen.Props.c19_dest_partial", "Arwen.Props.c19_same_partial", "Arwen.Props.c19_create_partial", "Arwen.Props.c19_tx_partial", "Arwen.Props.c19_neg", "Arwen.Props.c19_new_neg"], "note": "For accounts on the chain, with version 3: the nonce told and reported is the one on the chain plus the number of successful deployments of the account, at any depth and for transactions, short of overflow. c19_neg: before version 3 the reported nonce can be below the one on the chain; c19_new_neg: the nonce of a contract deployed in the same transaction can be lost."},
  {"property": "C20", "status": "proved", "theorems": ["Arwen.Props.c20_chain", "Arwen.Props.c20_wrapped", "Arwen.Props.c20_code", "Arwen.Props.c20_output", "Arwen.Props.c20_tx", "Arwen.Props.c20_no_gas", "Arwen.Props.c20_no_contract", "Arwen.Props.c20_no_gas_code", "Arwen.Props.c20_invalid", "Arwen.Props.c20_constructor", "Arwen.Props.c20_callback", "Arwen.Props.c20_unknown", "Arwen.Props.c20_stopped", "Arwen.Props.c20_overrun", "Arwen.Props.c20_signal"], "note": "c20_chain to c20_output: the code of an error of any length of chain; c20_tx: every failed transaction; the others: the code of each cause for a whole top-level call."},
  {"property": "C21", "status": "proved", "theorems": ["Arwen.Props.c21_load", "Arwen.Props.c21_store", "Arwen.Props.c21_store_load", "Arwen.Props.c21_host", "Arwen.Props.c21_host_load", "Arwen.Props.c21_load_clamped_neg"], "note": "For memories below 2 GiB (a wasm module of this kind cannot have a larger one here); c21_load_clamped_neg shows the clamping at 2^31-1 that makes the bound necessary."},
  {"property": "C22", "status": "partial", "theorems": ["Arwen.Props.c22_alive_bounded_partial", "Arwen.Props.c22_all_released_partial", "Arwen.Props.c22_history_partial", "Arwen.Props.c22_terminates", "Arwen.Props.c22_refused_dest", "Arwen.Props.c22_refused_same", "Arwen.Props.c22_warm_neg"], "note": "Termination and refusal are proved for every configuration. The bound on alive instances is proved with the warm-instance feature off; with it on the code violates the bound (c22_warm_neg)."},
  {"property": "C23", "status": "proved", "theorems": ["Arwen.Props.c23_dest", "Arwen.Props.c23_same", "Arwen.Props.c23_api", "Arwen.Props.c23_function", "Arwen.Props.c23_panic"], "note": ""},
  {"property": "C24", "status": "proved", "theorems": ["Arwen.Props.c24_constructor", "Arwen.Props.c24_callback", "Arwen.Props.c24_dest", "Arwen.Props.c24_same", "Arwen.Props.c24_api"], "note": "Top level: any call naming a constructor, or callBack without being a callback, fails without effects. Nested: refused unless the constructor is allowed, which no API function asks for (c24_api); only the host's own deployment does."},
  {"property": "C25", "status": "partial", "theorems": ["Arwen.Props.c25_name", "Arwen.Props.c25_verify", "Arwen.Props.c25_deploy", "Arwen.Props.c25_top", "Arwen.Props.c25_tx_partial", "Arwen.Props.c25_neg", "Arwen.Props.c25_warm_neg"], "note": "Deployments and upgrades asked for by transactions and upgrades asked for by contracts are validated, without warm instances. Deployments by contracts are not (c25_neg); with warm instances nothing is guaranteed (c25_warm_neg)."},
  {"property": "C26", "status": "partial", "theorems": ["Arwen.Props.c26_dest", "Arwen.Props.c26_same", "Arwen.Props.c26_tx_partial", "Arwen.Props.c26_neg"], "note": "A request for an upgrade fails without trace unless its sender owns the upgradeable target; at the level of whole transactions for targets whose owner is fixed. The sender of a request need not be the contract that makes it (c26_neg)."},
  {"property": "C27", "status": "partial", "theorems": ["Arwen.Props.c27_success_partial", "Arwen.Props.c27_failure", "Arwen.Props.c27_create", "Arwen.Props.c27_upgrade", "Arwen.Props.c27_neg"], "note": "For deployments by contracts: when init leads to no further deployment; otherwise both may get the same address (c27_neg). For transactions that deploy or upgrade: without restriction."},
  {"property": "C28", "status": "partial", "theorems": ["Arwen.Props.c28_register", "Arwen.Props.c28_atLeast", "Arwen.Props.c28_send", "Arwen.Props.c28_restore", "Arwen.Props.c29_input", "Arwen.Props.c28_neg"], "note": "Reservation, forwarding and the way back within a shard are proved; a callback that arrives from another shard with locked gas fails (c28_neg)."},
  {"property": "C29", "status": "partial", "theorems": ["Arwen.Props.c29_input", "Arwen.Props.c29_tokens", "Arwen.Props.c29_round", "Arwen.Props.c29_seen", "Arwen.Props.c29_here", "Arwen.Props.c29_back", "Arwen.Props.c29_one", "Arwen.Props.c29_group", "Arwen.Props.c29_reply", "Arwen.Props.c29_group_neg"], "note": "The callback is run once with the outcome, whenever the gas left and the reserved gas cover the price of handing over the arguments; otherwise it is not run. Groups of calls (createAsyncCall): c29_one, c29_group; calls from other shards: c29_reply; a destination that fails makes the caller's transaction panic instead (c29_group_neg). Contracts of this version cannot make groups of calls: the functions for it are not registered (C81)."},
  {"property": "C30", "status": "partial", "theorems": ["Arwen.Props.c30_unexpected", "Arwen.Props.c30_single_partial", "Arwen.Props.c30_more", "Arwen.Props.c30_neg", "Arwen.Props.c30_local_neg", "Arwen.Props.c30_last_neg"], "note": "Violated in general. Processing a callback: refused if unexpected; the only pending call is concluded (record cleared, original caller told once) unless the original caller is local (panic); with two or more pending calls nothing is ever removed (c30_more, c30_neg). With the V2 gas accounting even the last callback fails the final gas check (c30_last_neg). Contracts of this version cannot make groups of calls: the functions for it are not registered (C81)."},
  {"property": "C31", "status": "proved", "theorems": ["Arwen.Props.c31_assign", "Arwen.Props.c31_sum"], "note": "Contracts of this version cannot make groups of calls (C81)."},
  {"property": "C32", "status": "proved", "theorems": ["Arwen.Props.c32_roundtrip", "Arwen.Props.c32_injective", "Arwen.Props.c32_parsed_function_ok"], "note": ""},
  {"property": "C33", "status": "proved", "theorems": ["Arwen.Props.c33_writeLog", "Arwen.Props.c33_writeEventLog", "Arwen.Props.c33_atMost", "Arwen.Props.c33_kept"], "note": "For arguments inside the contract's memory; other calls fault or add nothing beyond one entry (c33_atMost)."},
  {"property": "C34", "status": "proved", "theorems": ["Arwen.Props.c34_same", "Arwen.Props.c34_others", "Arwen.Props.c34_total", "Arwen.Props.c34_acc", "Arwen.Props.c34_merge", "Arwen.Props.c34_builtin", "Arwen.Props.c34_setGas", "Arwen.Props.c34_consumed", "Arwen.Props.c34_setup", "Arwen.Props.c34_pending", "Arwen.Props.c34_error_neg", "Arwen.Props.c34_callback_neg"], "note": "SameMap/SameOut: equal up to the order of entries (c34_same: exactly the permutations). The two order-dependent results are shown by the _neg theorems. Contracts of this version cannot make groups of calls: the functions for it are not registered (C81)."},
  {"property": "C35", "status": "proved", "theorems": ["Arwen.Props.c35_roundtrip", "Arwen.Props.c35_truncated", "Arwen.Props.c35_long_neg"], "note": "The codec of the payload is a parameter with its round trip assumed. c35_long_neg shows that the bound on the size is needed."},
  {"property": "C36", "status": "proved", "theorems": ["Arwen.Props.c36_in_step", "Arwen.Props.c36_only_next", "Arwen.Props.c36_next", "Arwen.Props.c36_reset", "Arwen.Props.c36_count", "Arwen.Props.c36_stale_neg"], "note": "For dialogues of fewer than 2^32 - 1 messages. A message left over from before a reset may be accepted (c36_stale_neg)."},
  {"property": "C37", "status": "proved", "theorems": ["Arwen.Props.c37_output", "Arwen.Props.c37_host", "Arwen.Props.c37_map", "Arwen.Props.c37_nil", "Arwen.Props.c37_neg"], "note": "For outputs whose keys agree with the stored addresses, as the property says; c37_host shows that the outputs of the host are of this kind; c37_neg shows the loss otherwise."},
  {"property": "C38", "status": "partial", "theorems": ["Arwen.Props.c38_answered_partial", "Arwen.Props.c38_state", "Arwen.Props.c38_call_partial", "Arwen.Props.c38_create_partial", "Arwen.Props.c38_neg", "Arwen.Props.c38_snapshot_neg", "Arwen.Props.c38_gas_neg", "Arwen.Props.c38_empty_neg"], "note": "Proved for all hook functions but built-in calls, snapshots, reverts and the clearing of compiled code, which the node does not recognise (c38_neg), and isInterfaceNil, which is not sent. Gas schedule changes never arrive (c38_gas_neg). About a process that runs; see C77."},
  {"property": "C39", "status": "proved", "theorems": ["Arwen.Props.c39_roundtrip", "Arwen.Props.c39_parsed", "Arwen.Props.c39_again", "Arwen.Props.c39_injective", "Arwen.Props.c39_spaces", "Arwen.Props.c39_bool_neg", "Arwen.Props.c39_backslash_neg", "Arwen.Props.c39_comma_neg", "Arwen.Props.c39_twice_neg"], "note": "Documents are trees of objects, lists, strings and booleans as the parser builds them; the round trip holds for every printable document (strings the parser can end, no repeated key). Bare top-level booleans and strings ending in an escaped backslash fall outside, as the _neg theorems show."},
  {"property": "C40", "status": "partial", "theorems": ["Arwen.Props.c40_fixed", "Arwen.Props.c40_str", "Arwen.Props.c40_keccak", "Arwen.Props.c40_file", "Arwen.Props.c40_concat", "Arwen.Props.c40_number", "Arwen.Props.c40_signed", "Arwen.Props.c40_biguint", "Arwen.Props.c40_nested", "Arwen.Props.c40_address", "Arwen.Props.c40_tree", "Arwen.Props.c40_order", "Arwen.Props.c40_back_number_partial", "Arwen.Props.c40_back_str_partial", "Arwen.Props.c40_back_code_partial", "Arwen.Props.c40_back_address_partial", "Arwen.Props.c40_sc_neg", "Arwen.Props.c40_unknown_neg", "Arwen.Props.c40_code_neg", "Arwen.Props.c40_bar_neg"], "note": "Evaluation is proved for every form of expression. The way back holds for numbers without leading zeros, texts without |, code of at most ten bytes and addresses without | and #, for contracts with a last byte of at least 16; the _neg theorems show that the rest does not evaluate back. Keccak and the file resolver are parameters."},
  {"property": "C41", "status": "partial", "theorems": ["Arwen.Props.c41_unsigned", "Arwen.Props.c41_decimal", "Arwen.Props.c41_signed", "Arwen.Props.c41_bare_partial", "Arwen.Props.c41_bare_neg", "Arwen.Props.c41_empty_neg", "Arwen.Props.c41_zeros_neg", "Arwen.Props.c41_binary_neg"], "note": "uN: and iN: with a sign are exact or rejected; iN: without a sign accepts numbers up to 2^N-1 (c41_bare_neg) and panics on an empty number (c41_empty_neg)."},
  {"property": "C42", "status": "partial", "theorems": ["Arwen.Props.c42_storage_partial", "Arwen.Props.c42_new_partial", "Arwen.Props.c42_vm_partial", "Arwen.Props.c42_balance_neg", "Arwen.Props.c42_nonce_neg", "Arwen.Props.c42_code_neg", "Arwen.Props.c42_deleted_neg", "Arwen.Props.c42_new_neg", "Arwen.Props.c42_ask_neg", "Arwen.Props.c42_again_neg"], "note": "False of the code as stated: only the storage of accounts that still exist is restored (c42_storage_partial, for all histories). Going back leaves balances, nonces and code as they are, does not bring deleted accounts back, stops with an error at the first account made since the snapshot, and drops the snapshot; asking for a snapshot takes none. c42_vm_partial says when the snapshots the VM asks for do restore storage."},
  {"property": "C43", "status": "proved", "theorems": ["Arwen.Props.c43_accepted", "Arwen.Props.c43_missing", "Arwen.Props.c43_zero", "Arwen.Props.c43_complete", "Arwen.Props.c43_new", "Arwen.Props.c43_kept", "Arwen.Props.c43_applied", "Arwen.Props.c43_opcodes", "Arwen.Props.c43_used", "Arwen.Props.c43_priced", "Arwen.Props.c43_apart", "Arwen.Props.c43_prices", "Arwen.Props.c43_reported_neg", "Arwen.Props.c43_wide_neg", "Arwen.Props.c43_case_neg"], "note": "The decoding library is modelled by foundFor and decodeField. The host keeps charging by the old schedule but reports the rejected one (c43_reported_neg); opcode costs are cut to 32 bits (c43_wide_neg)."},
  {"property": "C44", "status": "proved", "theorems": ["Arwen.Props.c44_leb128", "Arwen.Props.c44_leb128_injective", "Arwen.Props.c44_inverse", "Arwen.Props.c44_pad"], "note": ""},
  {"property": "C45", "status": "partial", "theorems": ["Arwen.Props.c45_layers", "Arwen.Props.c45_is", "Arwen.Props.c45_single_layer_neg"], "note": "errors.Is on an error wrapped once only, asked for an error it does not contain, dereferences nil: c45_single_layer_neg. The layers statement and errors.Is on every other wrapping are proved."},
  {"property": "C46", "status": "partial", "theorems": ["Arwen.Props.c46_history_partial", "Arwen.Props.c46_api_partial", "Arwen.Props.c46_call_partial", "Arwen.Props.c46_deploy_partial", "Arwen.Props.c46_idle_partial", "Arwen.Props.c46_neg"], "note": "calls after any history, panics included, warm instances off; deployments depend on the size of the code loaded last (c46_neg)"},
  {"property": "C47", "status": "partial", "theorems": ["Arwen.Props.c47_partial", "Arwen.Props.c47_cache_partial", "Arwen.Props.c47_neg", "Arwen.Props.c47_warm_neg"], "note": "Instances started in a transaction run the deployed code, and the kept compiled code stays right, in every transaction, if contracts do not upgrade contracts and warm instances are not carried over. c47_neg: after an upgrade by a contract, even in a failing transaction, the wrong code runs; c47_warm_neg: warm instances run old code."},
  {"property": "C48", "status": "partial", "theorems": ["Arwen.Props.c48_function_partial", "Arwen.Props.c48_same_partial", "Arwen.Props.c48_neg"], "note": "Refunds add up exactly over the storage writes of one function and over calls on the caller's own context; refunds earned before a nested call on another context are lost (c48_neg), so the sum over such calls is false."},
  {"property": "C49", "status": "partial", "theorems": ["Arwen.Props.c49_storage", "Arwen.Props.c49_account_partial", "Arwen.Props.c49_nonce_partial", "Arwen.Props.c49_tx_partial", "Arwen.Props.c49_prestate", "Arwen.Props.c49_neg"], "note": "Storage of every account; balance, nonce and code of accounts that are on the chain. Applying to the world before or after the transaction is the same when built-in functions leave the world alone. c49_neg: contracts are told that an account missing on the chain has nothing although it was paid."},
  {"property": "C50", "status": "partial", "theorems": ["Arwen.Props.c50_create_partial", "Arwen.Props.c50_upgrade_partial", "Arwen.Props.c50_neg"], "note": "The price of the code is always taken, but it replaces what the call paid at its start and for earlier deployments instead of adding to it (c50_neg)."},
  {"property": "C51", "status": "partial", "theorems": ["Arwen.Props.c51_partial", "Arwen.Props.executeTx_snapshots", "Arwen.Props.setAccounts_snapshots", "Arwen.Props.c51_neg", "Arwen.Props.c51_again_neg", "Arwen.Props.c51_esdt_neg"], "note": "Proved for every transaction step, also with a transfer of tokens that stores values in the accounts, when the built-in functions that contracts call during it do not write to the world; every step leaves the world without snapshots, as the next one needs it. A token transfer made by a contract after a failed nested call survives the failure of the transaction (c51_again_neg), a failed token transfer is committed (c51_esdt_neg), and so is a transaction whose balance changes do not add up (c52_neg)."},
  {"property": "C52", "status": "partial", "theorems": ["Arwen.Props.c52_partial", "Arwen.Props.c52_neg"], "note": "Without deployments by contracts, the built-in functions keeping balances. A failed deployment can destroy value; the executor notices and commits (c52_neg)."},
  {"property": "C53", "status": "partial", "theorems": ["Arwen.Props.c53_checked", "Arwen.Props.c53_partial", "Arwen.Props.c53_owner_neg", "Arwen.Props.c53_reserved_neg", "Arwen.Props.c53_more_neg"], "note": "Exact characterisation of what is checked (c53_checked); equal to what is written down unless the description uses the owner, reserved storage keys or '+' among the tokens, which the code ignores (negations). The frozen flag of tokens is parsed and ignored too."},
  {"property": "C54", "status": "proved", "theorems": ["Arwen.Props.c54"], "note": "Exact characterisation for every output and expectation."},
  {"property": "C55", "status": "partial", "theorems": ["Arwen.Props.c55_partial", "Arwen.Props.c55_set", "Arwen.Props.c55_lastNonce_neg", "Arwen.Props.c55_zero_neg", "Arwen.Props.c55_fungible_neg", "Arwen.Props.c55_royalties_neg", "Arwen.Props.c55_reserved_neg", "Arwen.Props.c55_ambiguous_neg"], "note": "For descriptions that are plain and unambiguous, with encodings of tokens that decode what they encoded; the negations show that each restriction is needed."},
  {"property": "C56", "status": "partial", "theorems": ["Arwen.Props.c56", "Arwen.Props.c56_set", "Arwen.Props.c56_keys", "Arwen.Props.c56_kinds", "Arwen.Props.c56_keys_neg"], "note": "For token identifiers of the network's form (ticker, dash, six bytes); for other names entries can be shared (c56_keys_neg)."},
  {"property": "C57", "status": "partial", "theorems": ["Arwen.Props.c57_partial", "Arwen.Props.c57_external_neg"], "note": "For an executor that was just made; included scenarios must agree about checking gas (c57_external_neg)."},
  {"property": "C58", "status": "partial", "theorems": ["Arwen.Props.c58_partial", "Arwen.Props.c58_schedule_neg", "Arwen.Props.c58_deploy_neg"], "note": "For scenarios with the same gas schedule, that neither deploy nor upgrade, after any scenarios; both restrictions are needed (negations). The API functions must not read the stack of snapshots; those of the host do not (Host/Blind.lean)."},
  {"property": "C59", "status": "proved", "theorems": ["Arwen.Props.c59_sent", "Arwen.Props.c59_refused", "Arwen.Props.c59_builtin", "Arwen.Props.c59_builtin_gas"], "note": "The chain itself is a parameter: its answers are arbitrary."},
  {"property": "C60", "status": "partial", "theorems": ["Arwen.Props.c60_dest", "Arwen.Props.c60_by_caller", "Arwen.Props.c60_same", "Arwen.Props.c60_delegate", "Arwen.Props.c60_read_only", "Arwen.Props.c60_other_shard", "Arwen.Props.c60_seen", "Arwen.Props.c60_seen_same", "Arwen.Props.c60_unreadable_neg"], "note": "For calls that are laid out inside the memory; an error while the arguments are read is dropped (c60_unreadable_neg). c60_seen excludes built-in functions and upgrades."},
  {"property": "C61", "status": "partial", "theorems": ["Arwen.Props.c61_address", "Arwen.Props.c61_caller", "Arwen.Props.c61_function", "Arwen.Props.c61_num_arguments", "Arwen.Props.c61_argument", "Arwen.Props.c61_argument_length", "Arwen.Props.c61_no_argument", "Arwen.Props.c61_call_value", "Arwen.Props.c61_big_call_value", "Arwen.Props.c61_big_argument", "Arwen.Props.c61_small_argument", "Arwen.Props.c61_no_payment", "Arwen.Props.c61_token", "Arwen.Props.c61_tx_hash", "Arwen.Props.c61_block", "Arwen.Props.c61_block_data", "Arwen.Props.c61_owner", "Arwen.Props.c61_of_address", "Arwen.Props.c61_gas_left", "Arwen.Props.c61_results", "Arwen.Props.c61_big_balance", "Arwen.Props.c61_balance", "Arwen.Props.c61_no_token", "Arwen.Props.c61_token_balance", "Arwen.Props.c61_token_lengths", "Arwen.Props.c61_token_data", "Arwen.Props.c61_last_nonce", "Arwen.Props.c61_int64", "Arwen.Props.c61_value_and_name", "Arwen.Props.c61_results_neg", "Arwen.Props.c61_call_value_neg", "Arwen.Props.c61_token_name_neg", "Arwen.Props.c61_balance_neg", "Arwen.Props.c61_last_nonce_neg"], "note": "The violations: a negative index of a result panics; the value of a call without value is not written; the name of a token is never delivered by getCallValueTokenName; getExternalBalance does not tell the length of the balance; getCurrentESDTNFTNonce answers 0 for bytes outside the memory."},
  {"property": "C62", "status": "partial", "theorems": ["Arwen.Props.c62_rewrite", "Arwen.Props.c62_shard_neg", "Arwen.Props.c62_nonce_neg", "Arwen.Props.c62_arguments_neg", "Arwen.Props.c62_creator_neg", "Arwen.Props.c62_uri_neg", "Arwen.Props.c62_amount_neg", "Arwen.Props.c62_more_neg", "Arwen.Props.c62_zero_neg", "Arwen.Props.c62_sender_neg", "Arwen.Props.c62_log_neg", "Arwen.Props.c62_accounts_neg", "Arwen.Props.c62_tx_neg", "Arwen.Props.c62_expect_neg"], "note": "For files of which the writer leaves out nothing (KeptScenario, Spec/Rewrite.lean); the _neg theorems show files for which the property is false. The old test format is the subject of C71."},
  {"property": "C63", "status": "partial", "theorems": ["Arwen.Props.c63_store", "Arwen.Props.c63_load", "Arwen.Props.c63_again", "Arwen.Props.c63_load_length", "Arwen.Props.c63_load_from", "Arwen.Props.c63_load_protocol", "Arwen.Props.c63_int64_store", "Arwen.Props.c63_int64_load", "Arwen.Props.c63_unlock", "Arwen.Props.c63_store_read_only", "Arwen.Props.c63_store_guarded", "Arwen.Props.c63_small_store", "Arwen.Props.c63_small_load", "Arwen.Props.c63_small_again", "Arwen.Props.c63_big_store", "Arwen.Props.c63_big_load", "Arwen.Props.c63_big_again", "Arwen.Props.c63_lock", "Arwen.Props.c63_lock_time", "Arwen.Props.c63_lock_again", "Arwen.Props.c63_lock_neg"], "note": "The violation: a time lock with a negative time loses its sign. Big integers are stored without their sign, as the name of the function says."},
  {"property": "C64", "status": "partial", "theorems": ["Arwen.Props.c64_finish", "Arwen.Props.c64_small_finish", "Arwen.Props.c64_big_finish", "Arwen.Props.c64_log", "Arwen.Props.c64_pay", "Arwen.Props.c64_pay_builtin", "Arwen.Props.c64_pay_execute", "Arwen.Props.c64_pay_call", "Arwen.Props.c64_pay_execute_builtin", "Arwen.Props.c64_async", "Arwen.Props.c64_group_call", "Arwen.Props.c64_group_callback", "Arwen.Props.c64_create", "Arwen.Props.c64_deploy_from", "Arwen.Props.c64_upgrade", "Arwen.Props.c64_upgrade_from", "Arwen.Props.c64_tokens", "Arwen.Props.c64_tokens_fungible", "Arwen.Props.c64_tokens_old", "Arwen.Props.c64_log_old", "Arwen.Props.c64_int64", "Arwen.Props.c64_unpayable_neg", "Arwen.Props.c64_limit_neg", "Arwen.Props.c64_upgrade_neg", "Arwen.Props.c64_free_neg"], "note": "What the node's token function does is a parameter. Violations: a contract that is not payable is paid by transferValue; a call to another shard gets more gas than there is; an upgrade that cannot be paid is dropped and answered 0; calls of groups are free of charge. Contracts of this version cannot make groups of calls: the functions for it are not registered (C81)."},
  {"property": "C65", "status": "partial", "theorems": ["Arwen.Props.c65_bits", "Arwen.Props.c65_binary", "Arwen.Props.c65_unary", "Arwen.Props.c65_shift", "Arwen.Props.c65_compare", "Arwen.Props.c65_new", "Arwen.Props.c65_word", "Arwen.Props.c65_set_bytes", "Arwen.Props.c65_get_bytes", "Arwen.Props.c65_hash", "Arwen.Props.c65_bls", "Arwen.Props.c65_ed25519", "Arwen.Props.c65_secp256k1", "Arwen.Props.c65_word_neg"], "note": "Hash and signature functions are parameters. The violation: bigIntGetInt64 cuts off numbers of more than 64 bits."},
  {"property": "C66", "status": "partial", "theorems": ["Arwen.Props.c66_call", "Arwen.Props.c66_failed", "Arwen.Props.c66_same", "Arwen.Props.c66_tx", "Arwen.Props.c66_nested", "Arwen.Props.c66_neg"], "note": "Amounts are 64-bit words. Missing: what the running contract itself is charged when gas was sent to other shards (the violation: gas sent away earlier is deducted from what later calls are charged for)."},
  {"property": "C67", "status": "partial", "theorems": ["Arwen.Props.c67_schedule", "Arwen.Props.c67_answer", "Arwen.Props.c67_service", "Arwen.Props.c67_recovery", "Arwen.Props.c67_next", "Arwen.Props.c67_counters", "Arwen.Props.c67_restart_neg", "Arwen.Props.c67_zombie_neg"], "note": "About processes that run once they are started; see C77. Answers need a virtual machine that asks only the functions that the node recognises (C38). Not modelled: a node that waits for ever because it has no time limit; Close without the mutex, during an operation. The violations: a failed start makes the next operation panic; a process that died between two requests costs one request."},
  {"property": "C68", "status": "partial", "theorems": ["Arwen.Props.c68_reply", "Arwen.Props.c68_account", "Arwen.Props.c68_outcome", "Arwen.Props.c68_refused", "Arwen.Props.c68_next_partial", "Arwen.Props.c68_failed", "Arwen.Props.c68_query", "Arwen.Props.c68_others", "Arwen.Props.c68_tidy", "Arwen.Props.c68_stop_partial", "Arwen.Props.c68_stuck", "Arwen.Props.c68_history", "Arwen.Props.c68_lost", "Arwen.Props.c68_text_neg", "Arwen.Props.c68_key_neg", "Arwen.Props.c68_stop_neg", "Arwen.Props.c68_outcome_neg", "Arwen.Props.c68_deploy_neg", "Arwen.Props.c68_value_neg"], "note": "c68_next needs addresses and storage keys that are well-formed UTF-8 (c68_text_neg, c68_key_neg: others are not found again); c68_stop excludes a crash in the middle of writing the world (c68_stop_neg: the world is lost). Names of worlds and outcomes are plain names in all theorems (c68_outcome_neg: an outcome can overwrite a world). Built-in functions are those of the mock world, without effect (StillBuiltins)."},
  {"property": "C69", "status": "partial", "theorems": ["Arwen.Props.c69_price_partial", "Arwen.Props.c69_floor", "Arwen.Props.c69_run_partial", "Arwen.Props.c69_count", "Arwen.Props.c69_free_neg", "Arwen.Props.c69_named_neg"], "note": "Without deployments by contracts (c12_create_neg), without warm instances, for at most 2^62-1 gas. Violations: 13 operations on big integers are charged as subtractions instead of their own price (c69_named_neg; c69_floor still gives them the lowest price of the schedule); the two functions for groups of asynchronous calls are free (c69_free_neg). Contracts of this version cannot make groups of calls: the functions for it are not registered (C81)."},
  {"property": "C70", "status": "partial", "theorems": ["Arwen.Props.c70_steps", "Arwen.Props.c70_order_partial", "Arwen.Props.c70_ends", "Arwen.Props.c70_alone", "Arwen.Props.c70_whole", "Arwen.Props.c70_constant", "Arwen.Props.c70_finish", "Arwen.Props.c70_turn", "Arwen.Props.c70_driver_partial", "Arwen.Props.c70_overlap_neg", "Arwen.Props.c70_report_neg", "Arwen.Props.c70_hosts_neg"], "note": "Executions take the mutex only for reading, so two of them may overlap and mix up their inputs (c70_overlap_neg); c70_order_partial assumes that they do not. The prices of instructions are shared by all hosts of a process (c70_hosts_neg); GetGasScheduleMap takes no lock (c70_report_neg). Close of the driver, which takes no lock, is left out."},
  {"property": "C71", "status": "partial", "theorems": ["Arwen.Props.c71_rewrite", "Arwen.Props.c71_converted_file", "Arwen.Props.c71_test", "Arwen.Props.c71_file_partial", "Arwen.Props.c71_converted", "Arwen.Props.c71_header_neg", "Arwen.Props.c71_post_neg", "Arwen.Props.c71_number_neg", "Arwen.Props.c71_token_neg", "Arwen.Props.c71_receiver_neg", "Arwen.Props.c71_nonce_neg", "Arwen.Props.c71_panic_neg", "Arwen.Props.c71_valid_neg", "Arwen.Props.c71_schedule_neg", "Arwen.Props.c71_hash_neg"], "note": "c71_rewrite and c71_converted_file for files of which the writer leaves out nothing (KeptTest, Convertible in Spec/OldTest.lean); c71_file_partial without deployments and upgrades, as for C58; c71_converted speaks of the test with its transactions counted from one and of an executor with the same gas schedule. The _neg theorems show that each of these restrictions is needed. The step from the parsed values to those that are executed is part of C75."},
  {"property": "C72", "status": "partial", "theorems": ["Arwen.Props.c72_no_use_after_partial", "Arwen.Props.c72_once_partial", "Arwen.Props.c72_history_partial", "Arwen.Props.c72_start_partial", "Arwen.Props.c72_warm_neg"], "note": "Proved with the warm-instance feature off; with it on the property fails (c72_warm_neg). What the native library does with an instance is not modelled."},
  {"property": "C73", "status": "partial", "theorems": ["Arwen.Props.c73_read", "Arwen.Props.c73_one", "Arwen.Props.c73_order", "Arwen.Props.c73_words", "Arwen.Props.c73_expect_neg", "Arwen.Props.c73_missing_neg"], "note": "c73_read is an equivalence for all texts; the format has no required keys (c73_missing_neg). Missing: in a step with a transaction the result has to come after the transaction, otherwise the reader crashes instead of rejecting the file (c73_expect_neg)."},
  {"property": "C74", "status": "partial", "theorems": ["Arwen.Props.c74_file", "Arwen.Props.c74_one", "Arwen.Props.c74_walk", "Arwen.Props.c74_dir", "Arwen.Props.c74_count", "Arwen.Props.c74_alone_partial", "Arwen.Props.c74_meaning_partial", "Arwen.Props.c74_missing_neg", "Arwen.Props.c74_crash_neg", "Arwen.Props.c74_hash_neg"], "note": "c74_file and c74_dir are equivalences without conditions but well-formed patterns. That each file passes as if alone (c74_alone_partial, c74_meaning_partial) needs the conditions of C58: one gas schedule, no deployments or upgrades. Directories that cannot be listed pass (c74_missing_neg), a file can crash the whole run (c74_crash_neg), hashes of logs are not checked (c74_hash_neg)."},
  {"property": "C75", "status": "partial", "theorems": ["Arwen.Props.c75_read", "Arwen.Props.c75_tests", "Arwen.Props.c75_one", "Arwen.Props.c75_test_dir", "Arwen.Props.c75_test_alone_partial", "Arwen.Props.c75_command", "Arwen.Props.c75_each_partial", "Arwen.Props.c75_link_neg", "Arwen.Props.c75_header_neg"], "note": "c75_read, c75_tests, c75_test_dir and c75_command are equivalences without conditions but well-formed patterns. The two theorems about each file alone need the conditions of C58 (one gas schedule, no deployments or upgrades). A symbolic link to a directory succeeds without anything being run (c75_link_neg); the headers of blocks have no effect (c75_header_neg)."},
  {"property": "C76", "status": "proved", "theorems": ["Arwen.Props.c76_told", "Arwen.Props.c76_seed_neg", "Arwen.Props.c76_hash_neg"], "note": "The host with the real API is equal, on every transaction, to one whose API functions about blocks answer with the constants of the last setState step. Assumes that the built-in functions of the node only store values, and no warm instances. c76_seed_neg and c76_hash_neg are about the two questions that make the virtual machine panic."},
  {"property": "C77", "status": "partial", "theorems": ["Arwen.Props.c77_settings_partial", "Arwen.Props.c77_read", "Arwen.Props.c77_start", "Arwen.Props.c77_neg", "Arwen.Props.c77_silent_neg"], "note": "All settings but the built-in functions arrive (c77_settings_partial). Violated otherwise: a container of built-in functions cannot be read, and without one the process panics, so no process ever runs (c77_start, c77_neg) and the driver never answers a request (c77_silent_neg). C67, C38 and the other properties about the two processes speak of a process that does run."},
  {"property": "C78", "status": "partial", "theorems": ["Arwen.Props.c78_order_partial", "Arwen.Props.c78_apart", "Arwen.Props.c78_lost_neg", "Arwen.Props.c78_torn_neg"], "note": "Holds for every schedule if the requests that are in progress at the same time do not change, or change and query, the same world and do not keep outcomes under the same name (c78_order_partial); in particular for requests to different worlds and for queries (c78_apart). Violated otherwise: two changes of one world at the same time are both answered and one is lost (c78_lost_neg); a query while its world is written fails (c78_torn_neg)."},
  {"property": "C79", "status": "partial", "theorems": ["Arwen.Props.c79_term_partial", "Arwen.Props.c79_convert", "Arwen.Props.c79_injective", "Arwen.Props.c79_escape_neg"], "note": "The text is that of the document's term if no text has a quote or backslash in it (c79_term_partial; the format of tokens is K's, which escapes the text of a token); different documents give different texts, whatever is in them (c79_injective, for code that can stand between quotes). Violated otherwise: a text with an escaped quote is written with too few backslashes (c79_escape_neg)."},
  {"property": "C80", "status": "partial", "theorems": ["Arwen.Props.c80_bls_partial", "Arwen.Props.c80_ed25519", "Arwen.Props.c80_secp256k1", "Arwen.Props.c80_key", "Arwen.Props.c80_signed", "Arwen.Props.c80_unique", "Arwen.Props.c80_contract_bls_partial", "Arwen.Props.c80_contract_ed25519", "Arwen.Props.c80_contract_secp256k1", "Arwen.Props.c80_contract_hash", "Arwen.Props.c80_empty_neg"], "note": "The arithmetic of the libraries is a parameter; c80_signed and c80_unique assume the laws of a pairing. BLS: for messages that are not empty; the empty message has a signature in the scheme, but the signer refuses to make it and the check refuses to accept it (c80_empty_neg)."},
  {"property": "C81", "status": "proved", "theorems": ["Arwen.Props.c81_append", "Arwen.Props.c81_found", "Arwen.Props.c81_imports", "Arwen.Props.c81_calls", "Arwen.Props.c81_reach", "Arwen.Props.c81_unique", "Arwen.Props.c81_typed", "Arwen.Props.c81_reserved", "Arwen.Props.c81_groups"], "note": "The C wrappers and the linking by Wasmer are not modelled: a name that is not in the table cannot be linked. What the theorems about groups of asynchronous calls (C29, C30, C31, C34, C64, C69) say concerns code that contracts of this version cannot reach (c81_reach, c81_groups)."},
  {"property": "C82", "status": "partial", "theorems": ["Arwen.Props.c82_call", "Arwen.Props.c82_refused", "Arwen.Props.c82_exact", "Arwen.Props.c82_exact_neg", "Arwen.Props.c82_documented_neg", "Arwen.Props.c82_message_neg", "Arwen.Props.c82_exports", "Arwen.Props.c82_accepted"], "note": "Proved in full but for: numbers of the types int and uint that do not fit arrive modulo the size of the type (c82_exact_neg); the documented types uint32 (for i32) and floating point are refused (c82_documented_neg); errors do not name the function as documented (c82_message_neg). The host calls functions without arguments, so contracts meet none of these. The native library is a parameter."},
  {"property": "C83", "status": "partial", "theorems": ["Arwen.Props.c83_dump", "Arwen.Props.c83_all_partial", "Arwen.Props.c83_bytes", "Arwen.Props.c83_back_partial", "Arwen.Props.c83_address_neg", "Arwen.Props.c83_hidden_neg", "Arwen.Props.c83_balance_neg", "Arwen.Props.c83_uris_neg", "Arwen.Props.c83_text_neg", "Arwen.Props.c83_storage_neg"], "note": "c83_dump holds for all worlds. That every account is shown is proved for addresses that have a name in scenarios (c83_all_partial) and false for others: of two accounts whose addresses get the same name only one is shown (c83_address_neg). Not shown are code, owner, username and pending data (c83_hidden_neg), signs of balances (c83_balance_neg) and all URIs but the first (c83_uris_neg). Reading back is proved for accounts without storage (c83_back_partial) and false for all others (c83_storage_neg); the printed text may even not be JSON (c83_text_neg). strconv.Quote and the encoding of tokens are parameters; the order of the accounts is that of the map, which Go leaves open."},
  {"property": "C84", "status": "partial", "theorems": ["Arwen.Props.c84_names", "Arwen.Props.c84_asks", "Arwen.Props.c84_one", "Arwen.Props.c84_request", "Arwen.Props.c84_server", "Arwen.Props.c84_refused", "Arwen.Props.c84_unknown", "Arwen.Props.c84_success", "Arwen.Props.c84_order", "Arwen.Props.c84_no_gas", "Arwen.Props.c84_session", "Arwen.Props.c84_every_partial", "Arwen.Props.c84_query_neg", "Arwen.Props.c84_failed_neg", "Arwen.Props.c84_outcome_neg"], "note": "Everything but the last sentence is proved in full. Queries that send a value or set a price for gas cannot be made by a command (c84_query_neg); all other requests can (c84_every_partial). The program ends with 0 also if the execution failed (c84_failed_neg); the flag for the outcome must be there but may be empty (c84_outcome_neg); the limit of gas need not be there, but nothing works without it (c84_no_gas). How urfave/cli splits the command line into flags and values, its help and strconv.ParseUint are external."},
  {"property": "C85", "status": "partial", "theorems": ["Arwen.Props.c85_given", "Arwen.Props.c85_call", "Arwen.Props.c85_refused", "Arwen.Props.c85_names", "Arwen.Props.c85_direct", "Arwen.Props.c85_transfer", "Arwen.Props.c85_token", "Arwen.Props.c85_balance", "Arwen.Props.c85_panics", "Arwen.Props.c85_dns_partial", "Arwen.Props.c85_dns_neg", "Arwen.Props.c85_missing_neg"], "note": "Calls, transfers, names and tokens are proved for all addresses with an account (c85_call, c85_direct, c85_transfer, c85_token, c85_balance). An address without an account makes the program panic (c85_missing_neg; exactly these: c85_panics). The name server sc:dns#ff is left out of the list (c85_dns_neg), all others are in it (c85_dns_partial). The built-in functions themselves are those of elrond-vm-common and are arbitrary here; accounts are handed over as addresses instead of pointers."},
  {"property": "C86", "status": "partial", "theorems": ["Arwen.Props.c86_read", "Arwen.Props.c86_panics", "Arwen.Props.c86_promised", "Arwen.Props.c86_accepted", "Arwen.Props.c86_chosen", "Arwen.Props.c86_new", "Arwen.Props.c86_loads", "Arwen.Props.c86_same", "Arwen.Props.c86_negative_neg", "Arwen.Props.c86_builtin_neg"], "note": "All but the last sentence is proved, for the texts as they are in the repository. Built-in functions keep the costs of the tests whatever a scenario chooses (c86_builtin_neg). A negative cost in a file is read as an enormous one (c86_negative_neg); a file with anything else than tables of integers makes the program panic (exactly these: c86_panics). The dummy costs 1 for everything but the gas lock of asynchronous calls, which is 100000. The library that reads TOML is not modelled: the texts are given as the tables that they contain. That an executor keeps its first choice also for the next scenarios is c58_schedule_neg."},
  {"property": "C87", "status": "partial", "theorems": ["Arwen.Props.c87_weights_partial", "Arwen.Props.c87_one_partial", "Arwen.Props.c87_none", "Arwen.Props.c87_events_partial", "Arwen.Props.c87_negative_neg", "Arwen.Props.c87_overflow_neg", "Arwen.Props.c87_tenths_neg"], "note": "Proved for weights that are not negative and whose sum is positive and below 2^63. If all weights are zero, or the sum is too large, the program panics (c87_none, c87_overflow_neg); negative weights are not reported and take from the outcomes after them (c87_negative_neg). For events with probabilities, tried one after the other, it is proved that each happens for drawn numbers in an interval of the length of its probability, if the probabilities have at most 24 binary digits after the point (c87_events_partial); others are rounded when they are added, so that ten events of probability 0.1 make the program panic (c87_tenths_neg). That each number is drawn equally often is up to Go's source of random numbers, which is a parameter."},
  {"property": "C88", "status": "partial", "theorems": ["Arwen.Props.c88_right_partial", "Arwen.Props.c88_none_partial", "Arwen.Props.c88_started", "Arwen.Props.c88_panics", "Arwen.Props.c88_panic_neg", "Arwen.Props.c88_search_neg"], "note": "Proved for computers that tell of both names what they are, and values of the variable with a slash. Without these assumptions it is proved what is started (c88_started) and exactly when the node panics (c88_panics). Violated: the node panics if it may not look at one of the files, even if the other is there (c88_panic_neg); if the variable has no slash, a program of PATH is started instead of the file that was found (c88_search_neg). os.Stat, os.Getwd and the search of os/exec are parameters."}
]}
