import Verif.Tests.Common
/-
The unit tests of /repo/szse-bin/src/test, transcribed by tools/tests.py.
-/
namespace FinProto.Tests.Szse

/-- szse-bin/src/test/java/com/finproto/szse/bin/messages/BusinessRejectTest.java:11 -/
example : roundTrip (
    let original := fresh .szse_BusinessReject
    let original := original.setter "ApplId" (.str (js "111"))
    let original := original.setter "TransactTime" (.num ⟨.i64, 8⟩)
    let original := original.setter "SubmittingPbuid" (.str (js "111111"))
    let original := original.setter "SecurityId" (.str (js "11111111"))
    let original := original.setter "SecurityIdsource" (.str (js "1111"))
    let original := original.setter "RefSeqNum" (.num ⟨.i64, 8⟩)
    let original := original.setter "RefMsgType" (.num ⟨.i32, 4⟩)
    let original := original.setter "BusinessRejectRefId" (.str (js "1111111111"))
    let original := original.setter "BusinessRejectReason" (.num ⟨.i16, 2⟩)
    let original := original.setter "BusinessRejectText" (.str (js "11111111111111111111111111111111111111111111111111"))
    original) = true := by decide +kernel

/-- szse-bin/src/test/java/com/finproto/szse/bin/messages/CancelRejectTest.java:11 -/
example : roundTrip (
    let original := fresh .szse_CancelReject
    let original := original.setter "PartitionNo" (.num ⟨.i32, 4⟩)
    let original := original.setter "ReportIndex" (.num ⟨.i64, 8⟩)
    let original := original.setter "ApplId" (.str (js "111"))
    let original := original.setter "ReportingPbuid" (.str (js "111111"))
    let original := original.setter "SubmittingPbuid" (.str (js "111111"))
    let original := original.setter "SecurityId" (.str (js "11111111"))
    let original := original.setter "SecurityIdsource" (.str (js "1111"))
    let original := original.setter "OwnerType" (.num ⟨.i16, 2⟩)
    let original := original.setter "ClearingFirm" (.str (js "11"))
    let original := original.setter "TransactTime" (.num ⟨.i64, 8⟩)
    let original := original.setter "UserInfo" (.str (js "11111111"))
    let original := original.setter "ClOrdId" (.str (js "1111111111"))
    let original := original.setter "OrigClOrdId" (.str (js "1111111111"))
    let original := original.setter "Side" (.str (js "1"))
    let original := original.setter "OrdStatus" (.str (js "1"))
    let original := original.setter "CxlRejReason" (.num ⟨.i16, 2⟩)
    let original := original.setter "RejectText" (.str (js "1111111111111111"))
    let original := original.setter "OrderId" (.str (js "1111111111111111"))
    original) = true := by decide +kernel

/-- szse-bin/src/test/java/com/finproto/szse/bin/messages/ExecutionConfirmTest.java:11 -/
example : roundTrip (
    let original := fresh .szse_ExecutionConfirm
    let original := original.setter "PartitionNo" (.num ⟨.i32, 4⟩)
    let original := original.setter "ReportIndex" (.num ⟨.i64, 8⟩)
    let original := original.setter "ReportingPbuid" (.str (js "111111"))
    let original := original.setter "SubmittingPbuid" (.str (js "111111"))
    let original := original.setter "SecurityId" (.str (js "11111111"))
    let original := original.setter "SecurityIdsource" (.str (js "1111"))
    let original := original.setter "OwnerType" (.num ⟨.i16, 2⟩)
    let original := original.setter "ClearingFirm" (.str (js "11"))
    let original := original.setter "TransactTime" (.num ⟨.i64, 8⟩)
    let original := original.setter "UserInfo" (.str (js "11111111"))
    let original := original.setter "OrderId" (.str (js "1111111111111111"))
    let original := original.setter "ClOrdId" (.str (js "1111111111"))
    let original := original.setter "QuoteMsgId" (.str (js "1111111111"))
    let original := original.setter "OrigClOrdId" (.str (js "1111111111"))
    let original := original.setter "ExecId" (.str (js "1111111111111111"))
    let original := original.setter "ExecType" (.str (js "1"))
    let original := original.setter "OrdStatus" (.str (js "1"))
    let original := original.setter "OrdRejReason" (.num ⟨.i16, 2⟩)
    let original := original.setter "LeavesQty" (.num ⟨.i64, 8⟩)
    let original := original.setter "CumQty" (.num ⟨.i64, 8⟩)
    let original := original.setter "Side" (.str (js "1"))
    let original := original.setter "OrdType" (.str (js "1"))
    let original := original.setter "OrderQty" (.num ⟨.i64, 8⟩)
    let original := original.setter "Price" (.num ⟨.i64, 8⟩)
    let original := original.setter "AccountId" (.str (js "111111111111"))
    let original := original.setter "BranchId" (.str (js "1111"))
    let original := original.setter "OrderRestrictions" (.str (js "1111"))
    let original := original.setter "ApplId" (.str (js "010"))
    let extend200102 := fresh .szse_Extend200102
    let extend200102 := extend200102.setter "StopPx" (.num ⟨.i64, 8⟩)
    let extend200102 := extend200102.setter "MinQty" (.num ⟨.i64, 8⟩)
    let extend200102 := extend200102.setter "MaxPriceLevels" (.num ⟨.i16, 2⟩)
    let extend200102 := extend200102.setter "TimeInForce" (.str (js "1"))
    let extend200102 := extend200102.setter "CashMargin" (.str (js "1"))
    let original := original.setter "ApplExtend" (extend200102)
    original) = true := by decide +kernel

/-- szse-bin/src/test/java/com/finproto/szse/bin/messages/ExecutionReportTest.java:11 -/
example : roundTrip (
    let original := fresh .szse_ExecutionReport
    let original := original.setter "PartitionNo" (.num ⟨.i32, 4⟩)
    let original := original.setter "ReportIndex" (.num ⟨.i64, 8⟩)
    let original := original.setter "ReportingPbuid" (.str (js "111111"))
    let original := original.setter "SubmittingPbuid" (.str (js "111111"))
    let original := original.setter "SecurityId" (.str (js "11111111"))
    let original := original.setter "SecurityIdsource" (.str (js "1111"))
    let original := original.setter "OwnerType" (.num ⟨.i16, 2⟩)
    let original := original.setter "ClearingFirm" (.str (js "11"))
    let original := original.setter "TransactTime" (.num ⟨.i64, 8⟩)
    let original := original.setter "UserInfo" (.str (js "11111111"))
    let original := original.setter "OrderId" (.str (js "1111111111111111"))
    let original := original.setter "ClOrdId" (.str (js "1111111111"))
    let original := original.setter "QuoteMsgId" (.str (js "1111111111"))
    let original := original.setter "ExecId" (.str (js "1111111111111111"))
    let original := original.setter "ExecType" (.str (js "1"))
    let original := original.setter "OrdStatus" (.str (js "1"))
    let original := original.setter "LastPx" (.num ⟨.i64, 8⟩)
    let original := original.setter "LastQty" (.num ⟨.i64, 8⟩)
    let original := original.setter "LeavesQty" (.num ⟨.i64, 8⟩)
    let original := original.setter "CumQty" (.num ⟨.i64, 8⟩)
    let original := original.setter "Side" (.str (js "1"))
    let original := original.setter "AccountId" (.str (js "111111111111"))
    let original := original.setter "BranchId" (.str (js "1111"))
    let original := original.setter "ApplId" (.str (js "010"))
    let extend200115 := fresh .szse_Extend200115
    let extend200115 := extend200115.setter "CashMargin" (.str (js "1"))
    let original := original.setter "ApplExtend" (extend200115)
    original) = true := by decide +kernel

/-- szse-bin/src/test/java/com/finproto/szse/bin/messages/Extend100101Test.java:11 -/
example : roundTrip (
    let original := fresh .szse_Extend100101
    let original := original.setter "StopPx" (.num ⟨.i64, 8⟩)
    let original := original.setter "MinQty" (.num ⟨.i64, 8⟩)
    let original := original.setter "MaxPriceLevels" (.num ⟨.i16, 2⟩)
    let original := original.setter "TimeInForce" (.str (js "1"))
    let original := original.setter "CashMargin" (.str (js "1"))
    original) = true := by decide +kernel

/-- szse-bin/src/test/java/com/finproto/szse/bin/messages/Extend100201Test.java:11 -/
example : roundTrip (
    let original := fresh .szse_Extend100201
    let original := original.setter "StopPx" (.num ⟨.i64, 8⟩)
    let original := original.setter "MinQty" (.num ⟨.i64, 8⟩)
    let original := original.setter "MaxPriceLevels" (.num ⟨.i16, 2⟩)
    let original := original.setter "TimeInForce" (.str (js "1"))
    original) = true := by decide +kernel

/-- szse-bin/src/test/java/com/finproto/szse/bin/messages/Extend100301Test.java:11 -/
example : roundTrip (
    let original := fresh .szse_Extend100301
    let original := original.setter "StopPx" (.num ⟨.i64, 8⟩)
    let original := original.setter "MinQty" (.num ⟨.i64, 8⟩)
    let original := original.setter "MaxPriceLevels" (.num ⟨.i16, 2⟩)
    let original := original.setter "TimeInForce" (.str (js "1"))
    original) = true := by decide +kernel

/-- szse-bin/src/test/java/com/finproto/szse/bin/messages/Extend100501Test.java:11 -/
example : roundTrip (
    let original := fresh .szse_Extend100501
    let original := original.setter "ConfirmId" (.str (js "11111111"))
    let original := original.setter "CashMargin" (.str (js "1"))
    original) = true := by decide +kernel

/-- szse-bin/src/test/java/com/finproto/szse/bin/messages/Extend100601Test.java:11 -/
example : roundTrip (
    let original := fresh .szse_Extend100601
    let original := original.setter "CashMargin" (.str (js "1"))
    original) = true := by decide +kernel

/-- szse-bin/src/test/java/com/finproto/szse/bin/messages/Extend100701Test.java:11 -/
example : roundTrip (
    let original := fresh .szse_Extend100701
    let original := original.setter "ExpirationDays" (.num ⟨.i16, 2⟩)
    let original := original.setter "ExpirationType" (.num ⟨.i8, 1⟩)
    let original := original.setter "ShareProperty" (.str (js "11"))
    original) = true := by decide +kernel

/-- szse-bin/src/test/java/com/finproto/szse/bin/messages/Extend101401Test.java:11 -/
example : roundTrip (
    let original := fresh .szse_Extend101401
    let original := original.setter "StopPx" (.num ⟨.i64, 8⟩)
    let original := original.setter "MinQty" (.num ⟨.i64, 8⟩)
    let original := original.setter "MaxPriceLevels" (.num ⟨.i16, 2⟩)
    let original := original.setter "TimeInForce" (.str (js "1"))
    let original := original.setter "PositionEffect" (.str (js "1"))
    let original := original.setter "CoveredOrUncovered" (.num ⟨.i8, 1⟩)
    let original := original.setter "ContractAccountCode" (.str (js "111111"))
    let original := original.setter "SecondaryOrderId" (.str (js "1111111111111111"))
    original) = true := by decide +kernel

/-- szse-bin/src/test/java/com/finproto/szse/bin/messages/Extend101501Test.java:11 -/
example : roundTrip (
    let original := fresh .szse_Extend101501
    let original := original.setter "ShareProperty" (.str (js "11"))
    original) = true := by decide +kernel

/-- szse-bin/src/test/java/com/finproto/szse/bin/messages/Extend101601Test.java:11 -/
example : roundTrip (
    let original := fresh .szse_Extend101601
    let original := original.setter "ContractAccountCode" (.str (js "111111"))
    original) = true := by decide +kernel

/-- szse-bin/src/test/java/com/finproto/szse/bin/messages/Extend101701Test.java:11 -/
example : roundTrip (
    let original := fresh .szse_Extend101701
    let original := original.setter "CashOrderQty" (.num ⟨.i64, 8⟩)
    original) = true := by decide +kernel

/-- szse-bin/src/test/java/com/finproto/szse/bin/messages/Extend101801Test.java:11 -/
example : roundTrip (
    let original := fresh .szse_Extend101801
    let original := original.setter "Tenderer" (.str (js "111111"))
    original) = true := by decide +kernel

/-- szse-bin/src/test/java/com/finproto/szse/bin/messages/Extend102701Test.java:11 -/
example : roundTrip (
    let original := fresh .szse_Extend102701
    let original := original.setter "DisposalPbu" (.str (js "111111"))
    let original := original.setter "DisposalAccountId" (.str (js "111111111111"))
    original) = true := by decide +kernel

/-- szse-bin/src/test/java/com/finproto/szse/bin/messages/Extend102801Test.java:11 -/
example : roundTrip (
    let original := fresh .szse_Extend102801
    let original := original.setter "LenderPbu" (.str (js "111111"))
    let original := original.setter "LenderAccountId" (.str (js "111111111111"))
    original) = true := by decide +kernel

/-- szse-bin/src/test/java/com/finproto/szse/bin/messages/Extend102901Test.java:11 -/
example : roundTrip (
    let original := fresh .szse_Extend102901
    let original := original.setter "DeductionPbu" (.str (js "111111"))
    let original := original.setter "DeductionAccountId" (.str (js "111111111111"))
    original) = true := by decide +kernel

/-- szse-bin/src/test/java/com/finproto/szse/bin/messages/Extend103501Test.java:11 -/
example : roundTrip (
    let original := fresh .szse_Extend103501
    let original := original.setter "ContractAccountCode" (.str (js "111111"))
    original) = true := by decide +kernel

/-- szse-bin/src/test/java/com/finproto/szse/bin/messages/Extend103701Test.java:11 -/
example : roundTrip (
    let original := fresh .szse_Extend103701
    let original := original.setter "CashMargin" (.str (js "1"))
    original) = true := by decide +kernel

/-- szse-bin/src/test/java/com/finproto/szse/bin/messages/Extend104101Test.java:11 -/
example : roundTrip (
    let original := fresh .szse_Extend104101
    let original := original.setter "StopPx" (.num ⟨.i64, 8⟩)
    let original := original.setter "MinQty" (.num ⟨.i64, 8⟩)
    let original := original.setter "MaxPriceLevels" (.num ⟨.i16, 2⟩)
    let original := original.setter "TimeInForce" (.str (js "1"))
    let original := original.setter "CashMargin" (.str (js "1"))
    original) = true := by decide +kernel

/-- szse-bin/src/test/java/com/finproto/szse/bin/messages/Extend104128Test.java:11 -/
example : roundTrip (
    let original := fresh .szse_Extend104128
    let original := original.setter "MemberId" (.str (js "111111"))
    let original := original.setter "InvestorType" (.str (js "11"))
    let original := original.setter "InvestorId" (.str (js "1111111111"))
    let original := original.setter "InvestorName" (.str (js "111111111111111111111111111111111111111111111111111111111111111111111111111111111111111111111111111111111111111111111111"))
    let original := original.setter "TraderCode" (.str (js "11111111"))
    let original := original.setter "SecondaryOrderId" (.str (js "1111111111111111"))
    let original := original.setter "BidTransType" (.num ⟨.i16, 2⟩)
    let original := original.setter "BidExecInstType" (.num ⟨.i16, 2⟩)
    let original := original.setter "LowLimitPrice" (.num ⟨.i64, 8⟩)
    let original := original.setter "HighLimitPrice" (.num ⟨.i64, 8⟩)
    let original := original.setter "MinQty" (.num ⟨.i64, 8⟩)
    let original := original.setter "TradeDate" (.num ⟨.i32, 4⟩)
    let original := original.setter "SettlType" (.num ⟨.i16, 2⟩)
    let original := original.setter "SettlPeriod" (.num ⟨.i8, 1⟩)
    let original := original.setter "PreTradeAnonymity" (.num ⟨.i8, 1⟩)
    let original := original.setter "CashMargin" (.str (js "1"))
    let original := original.setter "Memo" (.str (js "1111111111111111111111111111111111111111111111111111111111111111111111111111111111111111111111111111111111111111111111111111111111111111111111111111111111111111"))
    original) = true := by decide +kernel

/-- szse-bin/src/test/java/com/finproto/szse/bin/messages/Extend104701Test.java:11 -/
example : roundTrip (
    let original := fresh .szse_Extend104701
    let original := original.setter "SecondaryOrderId" (.str (js "1111111111111111"))
    original) = true := by decide +kernel

/-- szse-bin/src/test/java/com/finproto/szse/bin/messages/Extend106301Test.java:11 -/
example : roundTrip (
    let original := fresh .szse_Extend106301
    let original := original.setter "StopPx" (.num ⟨.i64, 8⟩)
    let original := original.setter "MinQty" (.num ⟨.i64, 8⟩)
    let original := original.setter "MaxPriceLevels" (.num ⟨.i16, 2⟩)
    let original := original.setter "TimeInForce" (.str (js "1"))
    let original := original.setter "LotType" (.str (js "1"))
    original) = true := by decide +kernel

/-- szse-bin/src/test/java/com/finproto/szse/bin/messages/Extend200102Test.java:11 -/
example : roundTrip (
    let original := fresh .szse_Extend200102
    let original := original.setter "StopPx" (.num ⟨.i64, 8⟩)
    let original := original.setter "MinQty" (.num ⟨.i64, 8⟩)
    let original := original.setter "MaxPriceLevels" (.num ⟨.i16, 2⟩)
    let original := original.setter "TimeInForce" (.str (js "1"))
    let original := original.setter "CashMargin" (.str (js "1"))
    original) = true := by decide +kernel

/-- szse-bin/src/test/java/com/finproto/szse/bin/messages/Extend200115Test.java:11 -/
example : roundTrip (
    let original := fresh .szse_Extend200115
    let original := original.setter "CashMargin" (.str (js "1"))
    original) = true := by decide +kernel

/-- szse-bin/src/test/java/com/finproto/szse/bin/messages/Extend200202Test.java:11 -/
example : roundTrip (
    let original := fresh .szse_Extend200202
    let original := original.setter "StopPx" (.num ⟨.i64, 8⟩)
    let original := original.setter "MinQty" (.num ⟨.i64, 8⟩)
    let original := original.setter "MaxPriceLevels" (.num ⟨.i16, 2⟩)
    let original := original.setter "TimeInForce" (.str (js "1"))
    original) = true := by decide +kernel

/-- szse-bin/src/test/java/com/finproto/szse/bin/messages/Extend200215Test.java:11 -/
example : roundTrip (
    let original := fresh .szse_Extend200215
    let original := original.setter "MaturityDate" (.num ⟨.i32, 4⟩)
    original) = true := by decide +kernel

/-- szse-bin/src/test/java/com/finproto/szse/bin/messages/Extend200302Test.java:11 -/
example : roundTrip (
    let original := fresh .szse_Extend200302
    let original := original.setter "StopPx" (.num ⟨.i64, 8⟩)
    let original := original.setter "MinQty" (.num ⟨.i64, 8⟩)
    let original := original.setter "MaxPriceLevels" (.num ⟨.i16, 2⟩)
    let original := original.setter "TimeInForce" (.str (js "1"))
    original) = true := by decide +kernel

/-- szse-bin/src/test/java/com/finproto/szse/bin/messages/Extend200315Test.java:11 -/
example : roundTrip (
    let original := fresh .szse_Extend200315
    let original := original.setter "MaturityDate" (.num ⟨.i32, 4⟩)
    original) = true := by decide +kernel

/-- szse-bin/src/test/java/com/finproto/szse/bin/messages/Extend200402Test.java:11 -/
example : roundTrip (
    let original := fresh .szse_Extend200402
    let original := original.setter "StopPx" (.num ⟨.i64, 8⟩)
    let original := original.setter "MinQty" (.num ⟨.i64, 8⟩)
    let original := original.setter "MaxPriceLevels" (.num ⟨.i16, 2⟩)
    let original := original.setter "TimeInForce" (.str (js "1"))
    let original := original.setter "PositionEffect" (.str (js "1"))
    let original := original.setter "CoveredOrUncovered" (.num ⟨.i8, 1⟩)
    let original := original.setter "ContractAccountCode" (.str (js "111111"))
    let original := original.setter "SecondaryOrderId" (.str (js "1111111111111111"))
    original) = true := by decide +kernel

/-- szse-bin/src/test/java/com/finproto/szse/bin/messages/Extend200415Test.java:11 -/
example : roundTrip (
    let original := fresh .szse_Extend200415
    let original := original.setter "PositionEffect" (.str (js "1"))
    let original := original.setter "CoveredOrUncovered" (.num ⟨.i8, 1⟩)
    let original := original.setter "ContractAccountCode" (.str (js "111111"))
    let original := original.setter "SecondaryOrderId" (.str (js "1111111111111111"))
    original) = true := by decide +kernel

/-- szse-bin/src/test/java/com/finproto/szse/bin/messages/Extend200502Test.java:11 -/
example : roundTrip (
    let original := fresh .szse_Extend200502
    let original := original.setter "ConfirmId" (.str (js "11111111"))
    let original := original.setter "CashMargin" (.str (js "1"))
    original) = true := by decide +kernel

/-- szse-bin/src/test/java/com/finproto/szse/bin/messages/Extend200515Test.java:11 -/
example : roundTrip (
    let original := fresh .szse_Extend200515
    let original := original.setter "ConfirmId" (.str (js "11111111"))
    let original := original.setter "CashMargin" (.str (js "1"))
    original) = true := by decide +kernel

/-- szse-bin/src/test/java/com/finproto/szse/bin/messages/Extend200602Test.java:11 -/
example : roundTrip (
    let original := fresh .szse_Extend200602
    let original := original.setter "CashMargin" (.str (js "1"))
    original) = true := by decide +kernel

/-- szse-bin/src/test/java/com/finproto/szse/bin/messages/Extend200615Test.java:11 -/
example : roundTrip (
    let original := fresh .szse_Extend200615
    let original := original.setter "CashMargin" (.str (js "1"))
    original) = true := by decide +kernel

/-- szse-bin/src/test/java/com/finproto/szse/bin/messages/Extend200702Test.java:11 -/
example : roundTrip (
    let original := fresh .szse_Extend200702
    let original := original.setter "ExpirationDays" (.num ⟨.i16, 2⟩)
    let original := original.setter "ExpirationType" (.num ⟨.i8, 1⟩)
    let original := original.setter "ShareProperty" (.str (js "11"))
    original) = true := by decide +kernel

/-- szse-bin/src/test/java/com/finproto/szse/bin/messages/Extend200715Test.java:11 -/
example : roundTrip (
    let original := fresh .szse_Extend200715
    let original := original.setter "ExpirationDays" (.num ⟨.i16, 2⟩)
    let original := original.setter "ExpirationType" (.num ⟨.i8, 1⟩)
    let original := original.setter "MaturityDate" (.num ⟨.i32, 4⟩)
    let original := original.setter "ShareProperty" (.str (js "11"))
    original) = true := by decide +kernel

/-- szse-bin/src/test/java/com/finproto/szse/bin/messages/Extend201202Test.java:11 -/
example : roundTrip (
    let original := fresh .szse_Extend201202
    let original := original.setter "InsufficientSecurityId" (.str (js "11111111"))
    let original := original.setter "NoSecurity" (.num ⟨.i32, 4⟩)
    let original := original.setter "UnderlyingSecurityId" (.str (js "11111111"))
    let original := original.setter "UnderlyingSecurityIdsource" (.str (js "1111"))
    let original := original.setter "DeliveryQty" (.num ⟨.i64, 8⟩)
    let original := original.setter "SubstCash" (.num ⟨.i64, 8⟩)
    original) = true := by decide +kernel

/-- szse-bin/src/test/java/com/finproto/szse/bin/messages/Extend201502Test.java:11 -/
example : roundTrip (
    let original := fresh .szse_Extend201502
    let original := original.setter "ShareProperty" (.str (js "11"))
    original) = true := by decide +kernel

/-- szse-bin/src/test/java/com/finproto/szse/bin/messages/Extend201602Test.java:11 -/
example : roundTrip (
    let original := fresh .szse_Extend201602
    let original := original.setter "ContractAccountCode" (.str (js "111111"))
    original) = true := by decide +kernel

/-- szse-bin/src/test/java/com/finproto/szse/bin/messages/Extend201702Test.java:11 -/
example : roundTrip (
    let original := fresh .szse_Extend201702
    let original := original.setter "CashOrderQty" (.num ⟨.i64, 8⟩)
    original) = true := by decide +kernel

/-- szse-bin/src/test/java/com/finproto/szse/bin/messages/Extend201802Test.java:11 -/
example : roundTrip (
    let original := fresh .szse_Extend201802
    let original := original.setter "Tenderer" (.str (js "111111"))
    original) = true := by decide +kernel

/-- szse-bin/src/test/java/com/finproto/szse/bin/messages/Extend202702Test.java:11 -/
example : roundTrip (
    let original := fresh .szse_Extend202702
    let original := original.setter "DisposalPbu" (.str (js "111111"))
    let original := original.setter "DisposalAccountId" (.str (js "111111111111"))
    original) = true := by decide +kernel

/-- szse-bin/src/test/java/com/finproto/szse/bin/messages/Extend202802Test.java:11 -/
example : roundTrip (
    let original := fresh .szse_Extend202802
    let original := original.setter "LenderPbu" (.str (js "111111"))
    let original := original.setter "LenderAccountId" (.str (js "111111111111"))
    original) = true := by decide +kernel

/-- szse-bin/src/test/java/com/finproto/szse/bin/messages/Extend202902Test.java:11 -/
example : roundTrip (
    let original := fresh .szse_Extend202902
    let original := original.setter "DeductionPbu" (.str (js "111111"))
    let original := original.setter "DeductionAccountId" (.str (js "111111111111"))
    original) = true := by decide +kernel

/-- szse-bin/src/test/java/com/finproto/szse/bin/messages/Extend203102Test.java:11 -/
example : roundTrip (
    let original := fresh .szse_Extend203102
    let original := original.setter "InsufficientSecurityId" (.str (js "11111111"))
    let original := original.setter "NoSecurity" (.num ⟨.i32, 4⟩)
    let original := original.setter "UnderlyingSecurityId" (.str (js "11111111"))
    let original := original.setter "UnderlyingSecurityIdsource" (.str (js "1111"))
    let original := original.setter "DeliveryQty" (.num ⟨.i64, 8⟩)
    original) = true := by decide +kernel

/-- szse-bin/src/test/java/com/finproto/szse/bin/messages/Extend203502Test.java:11 -/
example : roundTrip (
    let original := fresh .szse_Extend203502
    let original := original.setter "ContractAccountCode" (.str (js "111111"))
    original) = true := by decide +kernel

/-- szse-bin/src/test/java/com/finproto/szse/bin/messages/Extend203702Test.java:11 -/
example : roundTrip (
    let original := fresh .szse_Extend203702
    let original := original.setter "CashMargin" (.str (js "1"))
    original) = true := by decide +kernel

/-- szse-bin/src/test/java/com/finproto/szse/bin/messages/Extend203715Test.java:11 -/
example : roundTrip (
    let original := fresh .szse_Extend203715
    let original := original.setter "CashMargin" (.str (js "1"))
    original) = true := by decide +kernel

/-- szse-bin/src/test/java/com/finproto/szse/bin/messages/Extend204102Test.java:11 -/
example : roundTrip (
    let original := fresh .szse_Extend204102
    let original := original.setter "StopPx" (.num ⟨.i64, 8⟩)
    let original := original.setter "MinQty" (.num ⟨.i64, 8⟩)
    let original := original.setter "MaxPriceLevels" (.num ⟨.i16, 2⟩)
    let original := original.setter "TimeInForce" (.str (js "1"))
    let original := original.setter "CashMargin" (.str (js "1"))
    original) = true := by decide +kernel

/-- szse-bin/src/test/java/com/finproto/szse/bin/messages/Extend204115Test.java:11 -/
example : roundTrip (
    let original := fresh .szse_Extend204115
    let original := original.setter "CashMargin" (.str (js "1"))
    let original := original.setter "SettlType" (.num ⟨.i16, 2⟩)
    let original := original.setter "SettlPeriod" (.num ⟨.i8, 1⟩)
    let original := original.setter "CounterpartyMemberId" (.str (js "111111"))
    let original := original.setter "CounterpartyInvestorType" (.str (js "11"))
    let original := original.setter "CounterpartyInvestorId" (.str (js "1111111111"))
    let original := original.setter "CounterpartyInvestorName" (.str (js "111111111111111111111111111111111111111111111111111111111111111111111111111111111111111111111111111111111111111111111111"))
    let original := original.setter "CounterpartyTraderCode" (.str (js "11111111"))
    original) = true := by decide +kernel

/-- szse-bin/src/test/java/com/finproto/szse/bin/messages/Extend204129Test.java:11 -/
example : roundTrip (
    let original := fresh .szse_Extend204129
    let original := original.setter "MemberId" (.str (js "111111"))
    let original := original.setter "InvestorType" (.str (js "11"))
    let original := original.setter "InvestorId" (.str (js "1111111111"))
    let original := original.setter "InvestorName" (.str (js "111111111111111111111111111111111111111111111111111111111111111111111111111111111111111111111111111111111111111111111111"))
    let original := original.setter "TraderCode" (.str (js "11111111"))
    let original := original.setter "SecondaryOrderId" (.str (js "1111111111111111"))
    let original := original.setter "BidTransType" (.num ⟨.i16, 2⟩)
    let original := original.setter "BidExecInstType" (.num ⟨.i16, 2⟩)
    let original := original.setter "LowLimitPrice" (.num ⟨.i64, 8⟩)
    let original := original.setter "HighLimitPrice" (.num ⟨.i64, 8⟩)
    let original := original.setter "MinQty" (.num ⟨.i64, 8⟩)
    let original := original.setter "TradeDate" (.num ⟨.i32, 4⟩)
    let original := original.setter "SettlType" (.num ⟨.i16, 2⟩)
    let original := original.setter "SettlPeriod" (.num ⟨.i8, 1⟩)
    let original := original.setter "PreTradeAnonymity" (.num ⟨.i8, 1⟩)
    let original := original.setter "CashMargin" (.str (js "1"))
    let original := original.setter "Memo" (.str (js "1111111111111111111111111111111111111111111111111111111111111111111111111111111111111111111111111111111111111111111111111111111111111111111111111111111111111111"))
    original) = true := by decide +kernel

/-- szse-bin/src/test/java/com/finproto/szse/bin/messages/Extend204130Test.java:11 -/
example : roundTrip (
    let original := fresh .szse_Extend204130
    let original := original.setter "MemberId" (.str (js "111111"))
    let original := original.setter "InvestorType" (.str (js "11"))
    let original := original.setter "InvestorId" (.str (js "1111111111"))
    let original := original.setter "InvestorName" (.str (js "111111111111111111111111111111111111111111111111111111111111111111111111111111111111111111111111111111111111111111111111"))
    let original := original.setter "TraderCode" (.str (js "11111111"))
    let original := original.setter "CounterpartyMemberId" (.str (js "111111"))
    let original := original.setter "CounterpartyInvestorType" (.str (js "11"))
    let original := original.setter "CounterpartyInvestorId" (.str (js "1111111111"))
    let original := original.setter "CounterpartyInvestorName" (.str (js "111111111111111111111111111111111111111111111111111111111111111111111111111111111111111111111111111111111111111111111111"))
    let original := original.setter "CounterpartyTraderCode" (.str (js "11111111"))
    let original := original.setter "SecondaryOrderId" (.str (js "1111111111111111"))
    let original := original.setter "BidTransType" (.num ⟨.i16, 2⟩)
    let original := original.setter "BidExecInstType" (.num ⟨.i16, 2⟩)
    let original := original.setter "SettlType" (.num ⟨.i16, 2⟩)
    let original := original.setter "SettlPeriod" (.num ⟨.i8, 1⟩)
    let original := original.setter "CashMargin" (.str (js "1"))
    let original := original.setter "Memo" (.str (js "1111111111111111111111111111111111111111111111111111111111111111111111111111111111111111111111111111111111111111111111111111111111111111111111111111111111111111"))
    original) = true := by decide +kernel

/-- szse-bin/src/test/java/com/finproto/szse/bin/messages/Extend204702Test.java:11 -/
example : roundTrip (
    let original := fresh .szse_Extend204702
    let original := original.setter "SecondaryOrderId" (.str (js "1111111111111111"))
    original) = true := by decide +kernel

/-- szse-bin/src/test/java/com/finproto/szse/bin/messages/Extend204715Test.java:11 -/
example : roundTrip (
    let original := fresh .szse_Extend204715
    let original := original.setter "ExpirationDays" (.num ⟨.i16, 2⟩)
    let original := original.setter "ExpirationType" (.num ⟨.i8, 1⟩)
    let original := original.setter "MaturityDate" (.num ⟨.i32, 4⟩)
    let original := original.setter "ShareProperty" (.str (js "11"))
    original) = true := by decide +kernel

/-- szse-bin/src/test/java/com/finproto/szse/bin/messages/Extend206302Test.java:11 -/
example : roundTrip (
    let original := fresh .szse_Extend206302
    let original := original.setter "RejectText" (.str (js "1111111111111111"))
    let original := original.setter "StopPx" (.num ⟨.i64, 8⟩)
    let original := original.setter "MinQty" (.num ⟨.i64, 8⟩)
    let original := original.setter "MaxPriceLevels" (.num ⟨.i16, 2⟩)
    let original := original.setter "TimeInForce" (.str (js "1"))
    let original := original.setter "LotType" (.str (js "1"))
    let original := original.setter "ImcrejectTextLen" (.num ⟨.i32, 4⟩)
    let original := original.setter "ImcrejectText" (.str (js "example"))
    original) = true := by decide +kernel

/-- szse-bin/src/test/java/com/finproto/szse/bin/messages/Extend206315Test.java:11 -/
example : roundTrip (
    let original := fresh .szse_Extend206315
    let original := original.setter "CashMargin" (.str (js "1"))
    original) = true := by decide +kernel

/-- szse-bin/src/test/java/com/finproto/szse/bin/messages/HeartbeatTest.java:11 -/
example : roundTrip (
    let original := fresh .szse_Heartbeat
    original) = true := by decide +kernel

/-- szse-bin/src/test/java/com/finproto/szse/bin/messages/LogonTest.java:11 -/
example : roundTrip (
    let original := fresh .szse_Logon
    let original := original.setter "SenderCompId" (.str (js "11111111111111111111"))
    let original := original.setter "TargetCompId" (.str (js "11111111111111111111"))
    let original := original.setter "HeartBtint" (.num ⟨.i32, 4⟩)
    let original := original.setter "Password" (.str (js "1111111111111111"))
    let original := original.setter "DefaultApplVerId" (.str (js "11111111111111111111111111111111"))
    original) = true := by decide +kernel

/-- szse-bin/src/test/java/com/finproto/szse/bin/messages/LogoutTest.java:11 -/
example : roundTrip (
    let original := fresh .szse_Logout
    let original := original.setter "SessionStatus" (.num ⟨.i32, 4⟩)
    let original := original.setter "Text" (.str (js "11111111111111111111111111111111111111111111111111111111111111111111111111111111111111111111111111111111111111111111111111111111111111111111111111111111111111111111111111111111111111111111111111111111"))
    original) = true := by decide +kernel

/-- szse-bin/src/test/java/com/finproto/szse/bin/messages/NewOrderTest.java:11 -/
example : roundTrip (
    let original := fresh .szse_NewOrder
    let original := original.setter "SubmittingPbuid" (.str (js "111111"))
    let original := original.setter "SecurityId" (.str (js "11111111"))
    let original := original.setter "SecurityIdsource" (.str (js "1111"))
    let original := original.setter "OwnerType" (.num ⟨.i16, 2⟩)
    let original := original.setter "ClearingFirm" (.str (js "11"))
    let original := original.setter "TransactTime" (.num ⟨.i64, 8⟩)
    let original := original.setter "UserInfo" (.str (js "11111111"))
    let original := original.setter "ClOrdId" (.str (js "1111111111"))
    let original := original.setter "AccountId" (.str (js "111111111111"))
    let original := original.setter "BranchId" (.str (js "1111"))
    let original := original.setter "OrderRestrictions" (.str (js "1111"))
    let original := original.setter "Side" (.str (js "1"))
    let original := original.setter "OrdType" (.str (js "1"))
    let original := original.setter "OrderQty" (.num ⟨.i64, 8⟩)
    let original := original.setter "Price" (.num ⟨.i64, 8⟩)
    let original := original.setter "ApplId" (.str (js "010"))
    let extend100101 := fresh .szse_Extend100101
    let extend100101 := extend100101.setter "StopPx" (.num ⟨.i64, 8⟩)
    let extend100101 := extend100101.setter "MinQty" (.num ⟨.i64, 8⟩)
    let extend100101 := extend100101.setter "MaxPriceLevels" (.num ⟨.i16, 2⟩)
    let extend100101 := extend100101.setter "TimeInForce" (.str (js "1"))
    let extend100101 := extend100101.setter "CashMargin" (.str (js "1"))
    let original := original.setter "ApplExtend" (extend100101)
    original) = true := by decide +kernel

/-- szse-bin/src/test/java/com/finproto/szse/bin/messages/OrderCancelRequestTest.java:11 -/
example : roundTrip (
    let original := fresh .szse_OrderCancelRequest
    let original := original.setter "ApplId" (.str (js "111"))
    let original := original.setter "SubmittingPbuid" (.str (js "111111"))
    let original := original.setter "SecurityId" (.str (js "11111111"))
    let original := original.setter "SecurityIdsource" (.str (js "1111"))
    let original := original.setter "OwnerType" (.num ⟨.i16, 2⟩)
    let original := original.setter "ClearingFirm" (.str (js "11"))
    let original := original.setter "TransactTime" (.num ⟨.i64, 8⟩)
    let original := original.setter "UserInfo" (.str (js "11111111"))
    let original := original.setter "ClOrdId" (.str (js "1111111111"))
    let original := original.setter "OrigClOrdId" (.str (js "1111111111"))
    let original := original.setter "Side" (.str (js "1"))
    let original := original.setter "OrderId" (.str (js "1111111111111111"))
    let original := original.setter "OrderQty" (.num ⟨.i64, 8⟩)
    original) = true := by decide +kernel

/-- szse-bin/src/test/java/com/finproto/szse/bin/messages/PartitionReportTest.java:11 -/
example : roundTrip (
    let original := fresh .szse_PartitionReport
    let original := original.setter "PartitionNo" (.num ⟨.i32, 4⟩)
    let original := original.setter "ReportIndex" (.num ⟨.i64, 8⟩)
    original) = true := by decide +kernel

/-- szse-bin/src/test/java/com/finproto/szse/bin/messages/PlatformInfoTest.java:12 -/
example : roundTrip (
    let original := fresh .szse_PlatformInfo
    let original := original.setter "PlatformId" (.num ⟨.i16, 2⟩)
    let platformPartition0 := fresh .szse_PlatformPartition
    let platformPartition0 := platformPartition0.setter "PartitionNo" (.num ⟨.i32, 4⟩)
    let original := original.setter "PlatformPartition" (.list [platformPartition0])
    original) = true := by decide +kernel

/-- szse-bin/src/test/java/com/finproto/szse/bin/messages/PlatformPartitionTest.java:11 -/
example : roundTrip (
    let original := fresh .szse_PlatformPartition
    let original := original.setter "PartitionNo" (.num ⟨.i32, 4⟩)
    original) = true := by decide +kernel

/-- szse-bin/src/test/java/com/finproto/szse/bin/messages/PlatformStateInfoTest.java:11 -/
example : roundTrip (
    let original := fresh .szse_PlatformStateInfo
    let original := original.setter "PlatformId" (.num ⟨.i16, 2⟩)
    let original := original.setter "PlatformState" (.num ⟨.i16, 2⟩)
    original) = true := by decide +kernel

/-- szse-bin/src/test/java/com/finproto/szse/bin/messages/ReportFinishedTest.java:11 -/
example : roundTrip (
    let original := fresh .szse_ReportFinished
    let original := original.setter "PartitionNo" (.num ⟨.i32, 4⟩)
    let original := original.setter "ReportIndex" (.num ⟨.i64, 8⟩)
    let original := original.setter "PlatformId" (.num ⟨.i16, 2⟩)
    original) = true := by decide +kernel

/-- szse-bin/src/test/java/com/finproto/szse/bin/messages/ReportSynchronizationTest.java:12 -/
example : roundTrip (
    let original := fresh .szse_ReportSynchronization
    let partitionReport0 := fresh .szse_PartitionReport
    let partitionReport0 := partitionReport0.setter "PartitionNo" (.num ⟨.i32, 4⟩)
    let partitionReport0 := partitionReport0.setter "ReportIndex" (.num ⟨.i64, 8⟩)
    let original := original.setter "PartitionReport" (.list [partitionReport0])
    original) = true := by decide +kernel

/-- szse-bin/src/test/java/com/finproto/szse/bin/messages/SzseBinaryTest.java:11 -/
example : roundTrip (
    let original := fresh .szse_SzseBinary
    let original := original.setter "MsgType" (.num ⟨.i32, 1⟩)
    let logon := fresh .szse_Logon
    let logon := logon.setter "SenderCompId" (.str (js "11111111111111111111"))
    let logon := logon.setter "TargetCompId" (.str (js "11111111111111111111"))
    let logon := logon.setter "HeartBtint" (.num ⟨.i32, 4⟩)
    let logon := logon.setter "Password" (.str (js "1111111111111111"))
    let logon := logon.setter "DefaultApplVerId" (.str (js "11111111111111111111111111111111"))
    let original := original.setter "Body" (logon)
    let original := original.setter "Checksum" (.num ⟨.i32, 4⟩)
    original) = true := by decide +kernel

/-- szse-bin/src/test/java/com/finproto/szse/bin/messages/TradingSessionStatusTest.java:11 -/
example : roundTrip (
    let original := fresh .szse_TradingSessionStatus
    let original := original.setter "MarketId" (.str (js "11111111"))
    let original := original.setter "MarketSegmentId" (.str (js "11111111"))
    let original := original.setter "TradingSessionId" (.str (js "1111"))
    let original := original.setter "TradingSessionSubId" (.str (js "1111"))
    let original := original.setter "TradSesStatus" (.num ⟨.i16, 2⟩)
    let original := original.setter "TradSesStartTime" (.num ⟨.i64, 8⟩)
    let original := original.setter "TradSesEndTime" (.num ⟨.i64, 8⟩)
    original) = true := by decide +kernel

end FinProto.Tests.Szse
