/-!
The names of the costs in a gas schedule (`config/gasCost.go`, `config/gasSchedule.go`). The lists are copied from the source in its
order.
-/
namespace Arwen.Config

/-- the fields of `BaseOperationCost` (`gasCost.go` 14-22) -/
def baseFields : List String :=
  ["StorePerByte", "ReleasePerByte", "DataCopyPerByte", "PersistPerByte", "CompilePerByte", "AoTPreparePerByte", "GetCode"]

/-- the fields of `ElrondAPICost` (`gasCost.go` 24-63) -/
def apiFields : List String :=
  ["GetSCAddress", "GetOwnerAddress", "IsSmartContract", "GetShardOfAddress", "GetExternalBalance", "GetBlockHash",
    "TransferValue", "GetArgument", "GetFunction", "GetNumArguments", "StorageStore", "StorageLoad", "GetCaller",
    "GetCallValue", "Log", "Finish", "SignalError", "GetBlockTimeStamp", "GetGasLeft", "Int64GetArgument", "Int64StorageStore",
    "Int64StorageLoad", "Int64Finish", "GetStateRootHash", "GetBlockNonce", "GetBlockEpoch", "GetBlockRound",
    "GetBlockRandomSeed", "ExecuteOnSameContext", "ExecuteOnDestContext", "DelegateExecution", "ExecuteReadOnly",
    "AsyncCallStep", "AsyncCallbackGasLock", "CreateContract", "GetReturnData", "GetNumReturnData", "GetReturnDataSize"]

/-- the fields of `EthAPICost` (`gasCost.go` 65-99) -/
def ethFields : List String :=
  ["UseGas", "GetAddress", "GetExternalBalance", "GetBlockHash", "Call", "CallDataCopy", "GetCallDataSize", "CallCode",
    "CallDelegate", "CallStatic", "StorageStore", "StorageLoad", "GetCaller", "GetCallValue", "CodeCopy", "GetCodeSize",
    "GetBlockCoinbase", "Create", "GetBlockDifficulty", "ExternalCodeCopy", "GetExternalCodeSize", "GetGasLeft",
    "GetBlockGasLimit", "GetTxGasPrice", "Log", "GetBlockNumber", "GetTxOrigin", "Finish", "Revert", "GetReturnDataSize",
    "ReturnDataCopy", "SelfDestruct", "GetBlockTimeStamp"]

/-- the fields of `BigIntAPICost` (`gasCost.go` 101-137) -/
def bigIntFields : List String :=
  ["BigIntNew", "BigIntUnsignedByteLength", "BigIntSignedByteLength", "BigIntGetUnsignedBytes", "BigIntGetSignedBytes",
    "BigIntSetUnsignedBytes", "BigIntSetSignedBytes", "BigIntIsInt64", "BigIntGetInt64", "BigIntSetInt64", "BigIntAdd",
    "BigIntSub", "BigIntMul", "BigIntTDiv", "BigIntTMod", "BigIntEDiv", "BigIntEMod", "BigIntAbs", "BigIntNeg", "BigIntSign",
    "BigIntCmp", "BigIntNot", "BigIntAnd", "BigIntOr", "BigIntXor", "BigIntShr", "BigIntShl", "BigIntFinishUnsigned",
    "BigIntFinishSigned", "BigIntStorageLoadUnsigned", "BigIntStorageStoreUnsigned", "BigIntGetUnsignedArgument",
    "BigIntGetSignedArgument", "BigIntGetCallValue", "BigIntGetExternalBalance"]

/-- the fields of `CryptoAPICost` (`gasCost.go` 139-146) -/
def cryptoFields : List String :=
  ["SHA256", "Keccak256", "Ripemd160", "VerifyBLS", "VerifyEd25519", "VerifySecp256k1"]

/-- The opcodes in the order of their numbers (`wasmer/opcodes.go` 3-452). `ToOpcodeCostsArray` (`gasCost.go` 600-1055) puts the cost of
each at its number. -/
def opcodes : List String :=
  ["Unreachable", "Nop", "Block", "Loop", "If", "Else", "End", "Br", "BrIf", "BrTable", "Return", "Call", "CallIndirect",
    "Drop", "Select", "TypedSelect", "LocalGet", "LocalSet", "LocalTee", "GlobalGet", "GlobalSet", "I32Load", "I64Load",
    "F32Load", "F64Load", "I32Load8S", "I32Load8U", "I32Load16S", "I32Load16U", "I64Load8S", "I64Load8U", "I64Load16S",
    "I64Load16U", "I64Load32S", "I64Load32U", "I32Store", "I64Store", "F32Store", "F64Store", "I32Store8", "I32Store16",
    "I64Store8", "I64Store16", "I64Store32", "MemorySize", "MemoryGrow", "I32Const", "I64Const", "F32Const", "F64Const",
    "RefNull", "RefIsNull", "RefFunc", "I32Eqz", "I32Eq", "I32Ne", "I32LtS", "I32LtU", "I32GtS", "I32GtU", "I32LeS", "I32LeU",
    "I32GeS", "I32GeU", "I64Eqz", "I64Eq", "I64Ne", "I64LtS", "I64LtU", "I64GtS", "I64GtU", "I64LeS", "I64LeU", "I64GeS",
    "I64GeU", "F32Eq", "F32Ne", "F32Lt", "F32Gt", "F32Le", "F32Ge", "F64Eq", "F64Ne", "F64Lt", "F64Gt", "F64Le", "F64Ge",
    "I32Clz", "I32Ctz", "I32Popcnt", "I32Add", "I32Sub", "I32Mul", "I32DivS", "I32DivU", "I32RemS", "I32RemU", "I32And",
    "I32Or", "I32Xor", "I32Shl", "I32ShrS", "I32ShrU", "I32Rotl", "I32Rotr", "I64Clz", "I64Ctz", "I64Popcnt", "I64Add",
    "I64Sub", "I64Mul", "I64DivS", "I64DivU", "I64RemS", "I64RemU", "I64And", "I64Or", "I64Xor", "I64Shl", "I64ShrS", "I64ShrU",
    "I64Rotl", "I64Rotr", "F32Abs", "F32Neg", "F32Ceil", "F32Floor", "F32Trunc", "F32Nearest", "F32Sqrt", "F32Add", "F32Sub",
    "F32Mul", "F32Div", "F32Min", "F32Max", "F32Copysign", "F64Abs", "F64Neg", "F64Ceil", "F64Floor", "F64Trunc", "F64Nearest",
    "F64Sqrt", "F64Add", "F64Sub", "F64Mul", "F64Div", "F64Min", "F64Max", "F64Copysign", "I32WrapI64", "I32TruncF32S",
    "I32TruncF32U", "I32TruncF64S", "I32TruncF64U", "I64ExtendI32S", "I64ExtendI32U", "I64TruncF32S", "I64TruncF32U",
    "I64TruncF64S", "I64TruncF64U", "F32ConvertI32S", "F32ConvertI32U", "F32ConvertI64S", "F32ConvertI64U", "F32DemoteF64",
    "F64ConvertI32S", "F64ConvertI32U", "F64ConvertI64S", "F64ConvertI64U", "F64PromoteF32", "I32ReinterpretF32",
    "I64ReinterpretF64", "F32ReinterpretI32", "F64ReinterpretI64", "I32Extend8S", "I32Extend16S", "I64Extend8S", "I64Extend16S",
    "I64Extend32S", "I32TruncSatF32S", "I32TruncSatF32U", "I32TruncSatF64S", "I32TruncSatF64U", "I64TruncSatF32S",
    "I64TruncSatF32U", "I64TruncSatF64S", "I64TruncSatF64U", "MemoryInit", "DataDrop", "MemoryCopy", "MemoryFill", "TableInit",
    "ElemDrop", "TableCopy", "TableFill", "TableGet", "TableSet", "TableGrow", "TableSize", "AtomicNotify", "I32AtomicWait",
    "I64AtomicWait", "AtomicFence", "I32AtomicLoad", "I64AtomicLoad", "I32AtomicLoad8U", "I32AtomicLoad16U", "I64AtomicLoad8U",
    "I64AtomicLoad16U", "I64AtomicLoad32U", "I32AtomicStore", "I64AtomicStore", "I32AtomicStore8", "I32AtomicStore16",
    "I64AtomicStore8", "I64AtomicStore16", "I64AtomicStore32", "I32AtomicRmwAdd", "I64AtomicRmwAdd", "I32AtomicRmw8AddU",
    "I32AtomicRmw16AddU", "I64AtomicRmw8AddU", "I64AtomicRmw16AddU", "I64AtomicRmw32AddU", "I32AtomicRmwSub", "I64AtomicRmwSub",
    "I32AtomicRmw8SubU", "I32AtomicRmw16SubU", "I64AtomicRmw8SubU", "I64AtomicRmw16SubU", "I64AtomicRmw32SubU",
    "I32AtomicRmwAnd", "I64AtomicRmwAnd", "I32AtomicRmw8AndU", "I32AtomicRmw16AndU", "I64AtomicRmw8AndU", "I64AtomicRmw16AndU",
    "I64AtomicRmw32AndU", "I32AtomicRmwOr", "I64AtomicRmwOr", "I32AtomicRmw8OrU", "I32AtomicRmw16OrU", "I64AtomicRmw8OrU",
    "I64AtomicRmw16OrU", "I64AtomicRmw32OrU", "I32AtomicRmwXor", "I64AtomicRmwXor", "I32AtomicRmw8XorU", "I32AtomicRmw16XorU",
    "I64AtomicRmw8XorU", "I64AtomicRmw16XorU", "I64AtomicRmw32XorU", "I32AtomicRmwXchg", "I64AtomicRmwXchg",
    "I32AtomicRmw8XchgU", "I32AtomicRmw16XchgU", "I64AtomicRmw8XchgU", "I64AtomicRmw16XchgU", "I64AtomicRmw32XchgU",
    "I32AtomicRmwCmpxchg", "I64AtomicRmwCmpxchg", "I32AtomicRmw8CmpxchgU", "I32AtomicRmw16CmpxchgU", "I64AtomicRmw8CmpxchgU",
    "I64AtomicRmw16CmpxchgU", "I64AtomicRmw32CmpxchgU", "V128Load", "V128Store", "V128Const", "I8x16Splat", "I8x16ExtractLaneS",
    "I8x16ExtractLaneU", "I8x16ReplaceLane", "I16x8Splat", "I16x8ExtractLaneS", "I16x8ExtractLaneU", "I16x8ReplaceLane",
    "I32x4Splat", "I32x4ExtractLane", "I32x4ReplaceLane", "I64x2Splat", "I64x2ExtractLane", "I64x2ReplaceLane", "F32x4Splat",
    "F32x4ExtractLane", "F32x4ReplaceLane", "F64x2Splat", "F64x2ExtractLane", "F64x2ReplaceLane", "I8x16Eq", "I8x16Ne",
    "I8x16LtS", "I8x16LtU", "I8x16GtS", "I8x16GtU", "I8x16LeS", "I8x16LeU", "I8x16GeS", "I8x16GeU", "I16x8Eq", "I16x8Ne",
    "I16x8LtS", "I16x8LtU", "I16x8GtS", "I16x8GtU", "I16x8LeS", "I16x8LeU", "I16x8GeS", "I16x8GeU", "I32x4Eq", "I32x4Ne",
    "I32x4LtS", "I32x4LtU", "I32x4GtS", "I32x4GtU", "I32x4LeS", "I32x4LeU", "I32x4GeS", "I32x4GeU", "F32x4Eq", "F32x4Ne",
    "F32x4Lt", "F32x4Gt", "F32x4Le", "F32x4Ge", "F64x2Eq", "F64x2Ne", "F64x2Lt", "F64x2Gt", "F64x2Le", "F64x2Ge", "V128Not",
    "V128And", "V128AndNot", "V128Or", "V128Xor", "V128Bitselect", "I8x16Neg", "I8x16AnyTrue", "I8x16AllTrue", "I8x16Shl",
    "I8x16ShrS", "I8x16ShrU", "I8x16Add", "I8x16AddSaturateS", "I8x16AddSaturateU", "I8x16Sub", "I8x16SubSaturateS",
    "I8x16SubSaturateU", "I8x16MinS", "I8x16MinU", "I8x16MaxS", "I8x16MaxU", "I8x16Mul", "I16x8Neg", "I16x8AnyTrue",
    "I16x8AllTrue", "I16x8Shl", "I16x8ShrS", "I16x8ShrU", "I16x8Add", "I16x8AddSaturateS", "I16x8AddSaturateU", "I16x8Sub",
    "I16x8SubSaturateS", "I16x8SubSaturateU", "I16x8Mul", "I16x8MinS", "I16x8MinU", "I16x8MaxS", "I16x8MaxU", "I32x4Neg",
    "I32x4AnyTrue", "I32x4AllTrue", "I32x4Shl", "I32x4ShrS", "I32x4ShrU", "I32x4Add", "I32x4Sub", "I32x4Mul", "I32x4MinS",
    "I32x4MinU", "I32x4MaxS", "I32x4MaxU", "I64x2Neg", "I64x2AnyTrue", "I64x2AllTrue", "I64x2Shl", "I64x2ShrS", "I64x2ShrU",
    "I64x2Add", "I64x2Sub", "I64x2Mul", "F32x4Abs", "F32x4Neg", "F32x4Sqrt", "F32x4Add", "F32x4Sub", "F32x4Mul", "F32x4Div",
    "F32x4Min", "F32x4Max", "F64x2Abs", "F64x2Neg", "F64x2Sqrt", "F64x2Add", "F64x2Sub", "F64x2Mul", "F64x2Div", "F64x2Min",
    "F64x2Max", "I32x4TruncSatF32x4S", "I32x4TruncSatF32x4U", "I64x2TruncSatF64x2S", "I64x2TruncSatF64x2U",
    "F32x4ConvertI32x4S", "F32x4ConvertI32x4U", "F64x2ConvertI64x2S", "F64x2ConvertI64x2U", "V8x16Swizzle", "V8x16Shuffle",
    "V8x16LoadSplat", "V16x8LoadSplat", "V32x4LoadSplat", "V64x2LoadSplat", "I8x16NarrowI16x8S", "I8x16NarrowI16x8U",
    "I16x8NarrowI32x4S", "I16x8NarrowI32x4U", "I16x8WidenLowI8x16S", "I16x8WidenHighI8x16S", "I16x8WidenLowI8x16U",
    "I16x8WidenHighI8x16U", "I32x4WidenLowI16x8S", "I32x4WidenHighI16x8S", "I32x4WidenLowI16x8U", "I32x4WidenHighI16x8U",
    "I16x8Load8x8S", "I16x8Load8x8U", "I32x4Load16x4S", "I32x4Load16x4U", "I64x2Load32x2S", "I64x2Load32x2U",
    "I8x16RoundingAverageU", "I16x8RoundingAverageU", "LocalAllocate"]

/-- the fields of `WASMOpcodeCost` (`gasCost.go` 148-598): one for each opcode and one more -/
def opcodeFields : List String := opcodes ++ ["LocalsUnmetered"]

/-- the keys set by `FillGasMap_BaseOperationCosts` (`gasSchedule.go` 152-163); the other functions set the names of the fields in
their order -/
def baseFilled : List String :=
  ["StorePerByte", "DataCopyPerByte", "ReleasePerByte", "PersistPerByte", "CompilePerByte", "AoTPreparePerByte", "GetCode"]

/-- the keys set by `FillGasMap_BuiltInCosts` (`gasSchedule.go` 130-150) -/
def builtInFilled : List String :=
  ["ChangeOwnerAddress", "ClaimDeveloperRewards", "SaveUserName", "SaveKeyValue", "ESDTTransfer", "ESDTBurn", "ESDTLocalMint",
    "ESDTLocalBurn", "ESDTNFTCreate", "ESDTNFTAddQuantity", "ESDTNFTBurn", "ESDTNFTTransfer", "ESDTNFTChangeCreateOwner",
    "ESDTNFTAddUri", "ESDTNFTUpdateAttributes", "ESDTNFTMultiTransfer"]

end Arwen.Config
