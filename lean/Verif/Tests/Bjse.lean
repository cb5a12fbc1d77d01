import Verif.Tests.Common
/-
The unit tests of /repo/bjse-bin/src/test, transcribed by tools/tests.py.
-/
namespace FinProto.Tests.Bjse

/-- bjse-bin/src/test/java/com/finproto/bjse/trade/messages/AllegeQuoteExtend070Test.java:11 -/
example : roundTrip (
    let original := fresh .bjse_AllegeQuoteExtend070
    let original := original.setter "CashMargin" (.str (js "1"))
    let original := original.setter "CounterPartyPbuid" (.str (js "111111"))
    original) = true := by decide +kernel

/-- bjse-bin/src/test/java/com/finproto/bjse/trade/messages/AllegeQuoteResponseTest.java:11 -/
example : roundTrip (
    let original := fresh .bjse_AllegeQuoteResponse
    let original := original.setter "PartitionNo" (.num ⟨.i32, 4⟩)
    let original := original.setter "ReportIndex" (.num ⟨.i64, 8⟩)
    let original := original.setter "ApplId" (.str (js "111"))
    let original := original.setter "ReportingPbuid" (.str (js "111111"))
    let original := original.setter "SubmittingPbuid" (.str (js "111111"))
    let original := original.setter "SecurityId" (.str (js "11111111"))
    let original := original.setter "SecurityIdsource" (.str (js "1111"))
    let original := original.setter "OwnerType" (.num ⟨.i16, 2⟩)
    let original := original.setter "ClearingFirm" (.str (js "11"))
    let original := original.setter "TransactTime" (.num ⟨.i64, 8⟩)
    let original := original.setter "UserInfo" (.str (js "11111111111111111111111111111111"))
    let original := original.setter "OrderId" (.str (js "1111111111111111"))
    let original := original.setter "ExecId" (.str (js "1111111111111111"))
    let original := original.setter "ClOrdId" (.str (js "1111111111"))
    let original := original.setter "AccountId" (.str (js "1111111111"))
    let original := original.setter "QuoteId" (.str (js "1111111111"))
    let original := original.setter "QuoteRespId" (.str (js "1111111111"))
    let original := original.setter "QuoteRespType" (.num ⟨.i8, 1⟩)
    let original := original.setter "PrivateQuote" (.num ⟨.i8, 1⟩)
    let original := original.setter "OrderQty" (.num ⟨.i64, 8⟩)
    let original := original.setter "Price" (.num ⟨.i64, 8⟩)
    let original := original.setter "ValidUntilTime" (.num ⟨.i64, 8⟩)
    let original := original.setter "QuoteType" (.num ⟨.i8, 1⟩)
    let original := original.setter "PriceType" (.num ⟨.i8, 1⟩)
    original) = true := by decide +kernel

/-- bjse-bin/src/test/java/com/finproto/bjse/trade/messages/AllegeQuoteTest.java:11 -/
example : roundTrip (
    let original := fresh .bjse_AllegeQuote
    let original := original.setter "PartitionNo" (.num ⟨.i32, 4⟩)
    let original := original.setter "ReportIndex" (.num ⟨.i64, 8⟩)
    let original := original.setter "ReportingPbuid" (.str (js "111111"))
    let original := original.setter "SubmittingPbuid" (.str (js "111111"))
    let original := original.setter "SecurityId" (.str (js "11111111"))
    let original := original.setter "SecurityIdsource" (.str (js "1111"))
    let original := original.setter "OwnerType" (.num ⟨.i16, 2⟩)
    let original := original.setter "ClearingFirm" (.str (js "11"))
    let original := original.setter "TransactTime" (.num ⟨.i64, 8⟩)
    let original := original.setter "UserInfo" (.str (js "11111111111111111111111111111111"))
    let original := original.setter "OrderId" (.str (js "1111111111111111"))
    let original := original.setter "ExecId" (.str (js "1111111111111111"))
    let original := original.setter "ClOrdId" (.str (js "1111111111"))
    let original := original.setter "AccountId" (.str (js "1111111111"))
    let original := original.setter "QuoteReqId" (.str (js "1111111111"))
    let original := original.setter "QuoteId" (.str (js "1111111111"))
    let original := original.setter "QuoteRespId" (.str (js "1111111111"))
    let original := original.setter "QuoteType" (.num ⟨.i8, 1⟩)
    let original := original.setter "BidPx" (.num ⟨.i64, 8⟩)
    let original := original.setter "OfferPx" (.num ⟨.i64, 8⟩)
    let original := original.setter "BidSize" (.num ⟨.i64, 8⟩)
    let original := original.setter "OfferSize" (.num ⟨.i64, 8⟩)
    let original := original.setter "PrivateQuote" (.num ⟨.i8, 1⟩)
    let original := original.setter "ValidUntilTime" (.num ⟨.i64, 8⟩)
    let original := original.setter "PriceType" (.num ⟨.i8, 1⟩)
    let original := original.setter "Memo" (.str (js "111111111111111111111111111111111111111111111111111111111111111111111111111111111111111111111111111111111111111111111111"))
    let original := original.setter "ApplId" (.str (js "070"))
    let allegeQuoteExtend070 := fresh .bjse_AllegeQuoteExtend070
    let allegeQuoteExtend070 := allegeQuoteExtend070.setter "CashMargin" (.str (js "1"))
    let allegeQuoteExtend070 := allegeQuoteExtend070.setter "CounterPartyPbuid" (.str (js "111111"))
    let original := original.setter "ApplExtend" (allegeQuoteExtend070)
    original) = true := by decide +kernel

/-- bjse-bin/src/test/java/com/finproto/bjse/trade/messages/BjseBinaryTest.java:11 -/
example : roundTrip (
    let original := fresh .bjse_BjseBinary
    let original := original.setter "BodyLength" (.num ⟨.i32, 4⟩)
    let original := original.setter "MsgType" (.num ⟨.i32, 1⟩)
    let logon := fresh .bjse_Logon
    let logon := logon.setter "SenderCompId" (.str (js "11111111111111111111"))
    let logon := logon.setter "TargetCompId" (.str (js "11111111111111111111"))
    let logon := logon.setter "HeartBtInt" (.num ⟨.i32, 4⟩)
    let logon := logon.setter "Password" (.str (js "1111111111111111"))
    let logon := logon.setter "DefaultApplVerId" (.str (js "11111111111111111111111111111111"))
    let original := original.setter "Body" (logon)
    let original := original.setter "Checksum" (.num ⟨.i32, 4⟩)
    original) = true := by decide +kernel

/-- bjse-bin/src/test/java/com/finproto/bjse/trade/messages/BusinessRejectTest.java:11 -/
example : roundTrip (
    let original := fresh .bjse_BusinessReject
    let original := original.setter "ApplId" (.str (js "111"))
    let original := original.setter "TransactTime" (.num ⟨.i64, 8⟩)
    let original := original.setter "SubmittingPbuid" (.str (js "111111"))
    let original := original.setter "SecurityId" (.str (js "11111111"))
    let original := original.setter "SecurityIdsource" (.str (js "1111"))
    let original := original.setter "RefSeqNum" (.num ⟨.i64, 8⟩)
    let original := original.setter "RefMsgType" (.num ⟨.i32, 4⟩)
    let original := original.setter "BusinessRejectRefId" (.str (js "1111111111"))
    let original := original.setter "BusinessRejectReason" (.num ⟨.i16, 2⟩)
    let original := original.setter "BusinessRejectText" (.str (js "11111111111111111111111111111111111111111111111111"))
    original) = true := by decide +kernel

/-- bjse-bin/src/test/java/com/finproto/bjse/trade/messages/CancelRejectTest.java:11 -/
example : roundTrip (
    let original := fresh .bjse_CancelReject
    let original := original.setter "PartitionNo" (.num ⟨.i32, 4⟩)
    let original := original.setter "ReportIndex" (.num ⟨.i64, 8⟩)
    let original := original.setter "ApplId" (.str (js "111"))
    let original := original.setter "ReportingPbuid" (.str (js "111111"))
    let original := original.setter "SubmittingPbuid" (.str (js "111111"))
    let original := original.setter "SecurityId" (.str (js "11111111"))
    let original := original.setter "SecurityIdsource" (.str (js "1111"))
    let original := original.setter "OwnerType" (.num ⟨.i16, 2⟩)
    let original := original.setter "ClearingFirm" (.str (js "11"))
    let original := original.setter "TransactTime" (.num ⟨.i64, 8⟩)
    let original := original.setter "UserInfo" (.str (js "11111111111111111111111111111111"))
    let original := original.setter "ClOrdId" (.str (js "1111111111"))
    let original := original.setter "OrigClOrdId" (.str (js "1111111111"))
    let original := original.setter "AccountId" (.str (js "1111111111"))
    let original := original.setter "BranchId" (.str (js "11"))
    let original := original.setter "OrdStatus" (.str (js "1"))
    let original := original.setter "CxlRejReason" (.num ⟨.i16, 2⟩)
    let original := original.setter "RejectText" (.str (js "1111111111111111"))
    let original := original.setter "OrderId" (.str (js "1111111111111111"))
    original) = true := by decide +kernel

/-- bjse-bin/src/test/java/com/finproto/bjse/trade/messages/ConfirmExtend010Test.java:11 -/
example : roundTrip (
    let original := fresh .bjse_ConfirmExtend010
    let original := original.setter "StopPx" (.num ⟨.i64, 8⟩)
    let original := original.setter "MinQty" (.num ⟨.i64, 8⟩)
    let original := original.setter "MaxPriceLevels" (.num ⟨.i16, 2⟩)
    let original := original.setter "TimeInForce" (.str (js "1"))
    let original := original.setter "CashMargin" (.str (js "1"))
    original) = true := by decide +kernel

/-- bjse-bin/src/test/java/com/finproto/bjse/trade/messages/ConfirmExtend040Test.java:11 -/
example : roundTrip (
    let original := fresh .bjse_ConfirmExtend040
    let original := original.setter "StopPx" (.num ⟨.i64, 8⟩)
    let original := original.setter "MinQty" (.num ⟨.i64, 8⟩)
    let original := original.setter "MaxPriceLevels" (.num ⟨.i16, 2⟩)
    let original := original.setter "TimeInForce" (.str (js "1"))
    let original := original.setter "CashMargin" (.str (js "1"))
    original) = true := by decide +kernel

/-- bjse-bin/src/test/java/com/finproto/bjse/trade/messages/ConfirmExtend041Test.java:11 -/
example : roundTrip (
    let original := fresh .bjse_ConfirmExtend041
    original) = true := by decide +kernel

/-- bjse-bin/src/test/java/com/finproto/bjse/trade/messages/ConfirmExtend042Test.java:11 -/
example : roundTrip (
    let original := fresh .bjse_ConfirmExtend042
    original) = true := by decide +kernel

/-- bjse-bin/src/test/java/com/finproto/bjse/trade/messages/ConfirmExtend043Test.java:11 -/
example : roundTrip (
    let original := fresh .bjse_ConfirmExtend043
    original) = true := by decide +kernel

/-- bjse-bin/src/test/java/com/finproto/bjse/trade/messages/ConfirmExtend044Test.java:11 -/
example : roundTrip (
    let original := fresh .bjse_ConfirmExtend044
    original) = true := by decide +kernel

/-- bjse-bin/src/test/java/com/finproto/bjse/trade/messages/ConfirmExtend045Test.java:11 -/
example : roundTrip (
    let original := fresh .bjse_ConfirmExtend045
    original) = true := by decide +kernel

/-- bjse-bin/src/test/java/com/finproto/bjse/trade/messages/ConfirmExtend050Test.java:11 -/
example : roundTrip (
    let original := fresh .bjse_ConfirmExtend050
    let original := original.setter "ExpirationDays" (.num ⟨.i16, 2⟩)
    let original := original.setter "ExpirationType" (.num ⟨.i8, 1⟩)
    let original := original.setter "ShareProperty" (.str (js "11"))
    original) = true := by decide +kernel

/-- bjse-bin/src/test/java/com/finproto/bjse/trade/messages/ExecutionConfirmTest.java:11 -/
example : roundTrip (
    let original := fresh .bjse_ExecutionConfirm
    let original := original.setter "PartitionNo" (.num ⟨.i32, 4⟩)
    let original := original.setter "ReportIndex" (.num ⟨.i64, 8⟩)
    let original := original.setter "ReportingPbuid" (.str (js "111111"))
    let original := original.setter "SubmittingPbuid" (.str (js "111111"))
    let original := original.setter "SecurityId" (.str (js "11111111"))
    let original := original.setter "SecurityIdsource" (.str (js "1111"))
    let original := original.setter "OwnerType" (.num ⟨.i16, 2⟩)
    let original := original.setter "ClearingFirm" (.str (js "11"))
    let original := original.setter "TransactTime" (.num ⟨.i64, 8⟩)
    let original := original.setter "UserInfo" (.str (js "11111111111111111111111111111111"))
    let original := original.setter "OrderId" (.str (js "1111111111111111"))
    let original := original.setter "ClOrdId" (.str (js "1111111111"))
    let original := original.setter "OrigClOrdId" (.str (js "1111111111"))
    let original := original.setter "ExecId" (.str (js "1111111111111111"))
    let original := original.setter "ExecType" (.str (js "1"))
    let original := original.setter "OrdStatus" (.str (js "1"))
    let original := original.setter "OrdRejReason" (.num ⟨.i16, 2⟩)
    let original := original.setter "LeavesQty" (.num ⟨.i64, 8⟩)
    let original := original.setter "CumQty" (.num ⟨.i64, 8⟩)
    let original := original.setter "Side" (.str (js "1"))
    let original := original.setter "OrdType" (.str (js "1"))
    let original := original.setter "OrderQty" (.num ⟨.i64, 8⟩)
    let original := original.setter "Price" (.num ⟨.i64, 8⟩)
    let original := original.setter "AccountId" (.str (js "1111111111"))
    let original := original.setter "BranchId" (.str (js "11"))
    let original := original.setter "OrderRestrictions" (.str (js "1111"))
    let original := original.setter "ApplId" (.str (js "010"))
    let confirmExtend010 := fresh .bjse_ConfirmExtend010
    let confirmExtend010 := confirmExtend010.setter "StopPx" (.num ⟨.i64, 8⟩)
    let confirmExtend010 := confirmExtend010.setter "MinQty" (.num ⟨.i64, 8⟩)
    let confirmExtend010 := confirmExtend010.setter "MaxPriceLevels" (.num ⟨.i16, 2⟩)
    let confirmExtend010 := confirmExtend010.setter "TimeInForce" (.str (js "1"))
    let confirmExtend010 := confirmExtend010.setter "CashMargin" (.str (js "1"))
    let original := original.setter "ApplExtend" (confirmExtend010)
    original) = true := by decide +kernel

/-- bjse-bin/src/test/java/com/finproto/bjse/trade/messages/ExecutionReportTest.java:11 -/
example : roundTrip (
    let original := fresh .bjse_ExecutionReport
    let original := original.setter "PartitionNo" (.num ⟨.i32, 4⟩)
    let original := original.setter "ReportIndex" (.num ⟨.i64, 8⟩)
    let original := original.setter "ReportingPbuid" (.str (js "111111"))
    let original := original.setter "SubmittingPbuid" (.str (js "111111"))
    let original := original.setter "SecurityId" (.str (js "11111111"))
    let original := original.setter "SecurityIdsource" (.str (js "1111"))
    let original := original.setter "OwnerType" (.num ⟨.i16, 2⟩)
    let original := original.setter "ClearingFirm" (.str (js "11"))
    let original := original.setter "TransactTime" (.num ⟨.i64, 8⟩)
    let original := original.setter "UserInfo" (.str (js "11111111111111111111111111111111"))
    let original := original.setter "OrderId" (.str (js "1111111111111111"))
    let original := original.setter "ClOrdId" (.str (js "1111111111"))
    let original := original.setter "ExecId" (.str (js "1111111111111111"))
    let original := original.setter "ExecType" (.str (js "1"))
    let original := original.setter "OrdStatus" (.str (js "1"))
    let original := original.setter "LastPx" (.num ⟨.i64, 8⟩)
    let original := original.setter "LastQty" (.num ⟨.i64, 8⟩)
    let original := original.setter "LeavesQty" (.num ⟨.i64, 8⟩)
    let original := original.setter "CumQty" (.num ⟨.i64, 8⟩)
    let original := original.setter "Side" (.str (js "1"))
    let original := original.setter "AccountId" (.str (js "1111111111"))
    let original := original.setter "BranchId" (.str (js "11"))
    let original := original.setter "ApplId" (.str (js "010"))
    let reportExtend010 := fresh .bjse_ReportExtend010
    let reportExtend010 := reportExtend010.setter "CashMargin" (.str (js "1"))
    let reportExtend010 := reportExtend010.setter "SettlType" (.str (js "1"))
    let reportExtend010 := reportExtend010.setter "SettlPeriod" (.str (js "1"))
    let original := original.setter "ApplExtend" (reportExtend010)
    original) = true := by decide +kernel

/-- bjse-bin/src/test/java/com/finproto/bjse/trade/messages/Extend010Test.java:11 -/
example : roundTrip (
    let original := fresh .bjse_Extend010
    let original := original.setter "StopPx" (.num ⟨.i64, 8⟩)
    let original := original.setter "MinQty" (.num ⟨.i64, 8⟩)
    let original := original.setter "MaxPriceLevels" (.num ⟨.i16, 2⟩)
    let original := original.setter "TimeInForce" (.num ⟨.i8, 1⟩)
    let original := original.setter "CashMargin" (.num ⟨.i8, 1⟩)
    let original := original.setter "SettlType" (.num ⟨.i8, 1⟩)
    let original := original.setter "SettlPeriod" (.num ⟨.i8, 1⟩)
    original) = true := by decide +kernel

/-- bjse-bin/src/test/java/com/finproto/bjse/trade/messages/Extend040Test.java:11 -/
example : roundTrip (
    let original := fresh .bjse_Extend040
    let original := original.setter "StopPx" (.num ⟨.i64, 8⟩)
    let original := original.setter "MinQty" (.num ⟨.i64, 8⟩)
    let original := original.setter "MaxPriceLevels" (.num ⟨.i16, 2⟩)
    let original := original.setter "TimeInForce" (.num ⟨.i8, 1⟩)
    let original := original.setter "CashMargin" (.num ⟨.i8, 1⟩)
    original) = true := by decide +kernel

/-- bjse-bin/src/test/java/com/finproto/bjse/trade/messages/Extend041Test.java:11 -/
example : roundTrip (
    let original := fresh .bjse_Extend041
    original) = true := by decide +kernel

/-- bjse-bin/src/test/java/com/finproto/bjse/trade/messages/Extend042Test.java:11 -/
example : roundTrip (
    let original := fresh .bjse_Extend042
    original) = true := by decide +kernel

/-- bjse-bin/src/test/java/com/finproto/bjse/trade/messages/Extend043Test.java:11 -/
example : roundTrip (
    let original := fresh .bjse_Extend043
    original) = true := by decide +kernel

/-- bjse-bin/src/test/java/com/finproto/bjse/trade/messages/Extend044Test.java:11 -/
example : roundTrip (
    let original := fresh .bjse_Extend044
    original) = true := by decide +kernel

/-- bjse-bin/src/test/java/com/finproto/bjse/trade/messages/Extend045Test.java:11 -/
example : roundTrip (
    let original := fresh .bjse_Extend045
    original) = true := by decide +kernel

/-- bjse-bin/src/test/java/com/finproto/bjse/trade/messages/Extend050Test.java:11 -/
example : roundTrip (
    let original := fresh .bjse_Extend050
    let original := original.setter "ExpirationDays" (.num ⟨.i16, 2⟩)
    let original := original.setter "ExpirationType" (.num ⟨.i8, 1⟩)
    let original := original.setter "ShareProperty" (.str (js "11"))
    original) = true := by decide +kernel

/-- bjse-bin/src/test/java/com/finproto/bjse/trade/messages/ExtendNewOrder010Test.java:11 -/
example : roundTrip (
    let original := fresh .bjse_ExtendNewOrder010
    let original := original.setter "StopPx" (.num ⟨.i64, 8⟩)
    let original := original.setter "MinQty" (.num ⟨.i64, 8⟩)
    let original := original.setter "MaxPriceLevels" (.num ⟨.i16, 2⟩)
    let original := original.setter "TimeInForce" (.str (js "1"))
    let original := original.setter "CashMargin" (.str (js "1"))
    let original := original.setter "SettlType" (.str (js "1"))
    let original := original.setter "SettlPeriod" (.str (js "1"))
    original) = true := by decide +kernel

/-- bjse-bin/src/test/java/com/finproto/bjse/trade/messages/ExtendNewOrder040Test.java:11 -/
example : roundTrip (
    let original := fresh .bjse_ExtendNewOrder040
    let original := original.setter "StopPx" (.num ⟨.i64, 8⟩)
    let original := original.setter "MinQty" (.num ⟨.i64, 8⟩)
    let original := original.setter "MaxPriceLevels" (.num ⟨.i16, 2⟩)
    let original := original.setter "TimeInForce" (.str (js "1"))
    let original := original.setter "CashMargin" (.str (js "1"))
    original) = true := by decide +kernel

/-- bjse-bin/src/test/java/com/finproto/bjse/trade/messages/ExtendNewOrder041Test.java:11 -/
example : roundTrip (
    let original := fresh .bjse_ExtendNewOrder041
    original) = true := by decide +kernel

/-- bjse-bin/src/test/java/com/finproto/bjse/trade/messages/ExtendNewOrder042Test.java:11 -/
example : roundTrip (
    let original := fresh .bjse_ExtendNewOrder042
    original) = true := by decide +kernel

/-- bjse-bin/src/test/java/com/finproto/bjse/trade/messages/ExtendNewOrder043Test.java:11 -/
example : roundTrip (
    let original := fresh .bjse_ExtendNewOrder043
    original) = true := by decide +kernel

/-- bjse-bin/src/test/java/com/finproto/bjse/trade/messages/ExtendNewOrder044Test.java:11 -/
example : roundTrip (
    let original := fresh .bjse_ExtendNewOrder044
    original) = true := by decide +kernel

/-- bjse-bin/src/test/java/com/finproto/bjse/trade/messages/ExtendNewOrder045Test.java:11 -/
example : roundTrip (
    let original := fresh .bjse_ExtendNewOrder045
    original) = true := by decide +kernel

/-- bjse-bin/src/test/java/com/finproto/bjse/trade/messages/ExtendNewOrder050Test.java:11 -/
example : roundTrip (
    let original := fresh .bjse_ExtendNewOrder050
    let original := original.setter "ExpirationDays" (.num ⟨.i16, 2⟩)
    let original := original.setter "ExpirationType" (.num ⟨.i8, 1⟩)
    let original := original.setter "ShareProperty" (.str (js "11"))
    original) = true := by decide +kernel

/-- bjse-bin/src/test/java/com/finproto/bjse/trade/messages/HeartbeatTest.java:11 -/
example : roundTrip (
    let original := fresh .bjse_Heartbeat
    original) = true := by decide +kernel

/-- bjse-bin/src/test/java/com/finproto/bjse/trade/messages/LogonTest.java:11 -/
example : roundTrip (
    let original := fresh .bjse_Logon
    let original := original.setter "SenderCompId" (.str (js "11111111111111111111"))
    let original := original.setter "TargetCompId" (.str (js "11111111111111111111"))
    let original := original.setter "HeartBtInt" (.num ⟨.i32, 4⟩)
    let original := original.setter "Password" (.str (js "1111111111111111"))
    let original := original.setter "DefaultApplVerId" (.str (js "11111111111111111111111111111111"))
    original) = true := by decide +kernel

/-- bjse-bin/src/test/java/com/finproto/bjse/trade/messages/LogoutTest.java:11 -/
example : roundTrip (
    let original := fresh .bjse_Logout
    let original := original.setter "SessionStatus" (.num ⟨.i32, 4⟩)
    let original := original.setter "Text" (.str (js "11111111111111111111111111111111111111111111111111111111111111111111111111111111111111111111111111111111111111111111111111111111111111111111111111111111111111111111111111111111111111111111111111111111"))
    original) = true := by decide +kernel

/-- bjse-bin/src/test/java/com/finproto/bjse/trade/messages/NewOrderTest.java:11 -/
example : roundTrip (
    let original := fresh .bjse_NewOrder
    let original := original.setter "SubmittingPbuid" (.str (js "111111"))
    let original := original.setter "SecurityId" (.str (js "11111111"))
    let original := original.setter "SecurityIdsource" (.str (js "1111"))
    let original := original.setter "OwnerType" (.num ⟨.i16, 2⟩)
    let original := original.setter "ClearingFirm" (.str (js "11"))
    let original := original.setter "TransactTime" (.num ⟨.i64, 8⟩)
    let original := original.setter "UserInfo" (.str (js "11111111111111111111111111111111"))
    let original := original.setter "ClOrdId" (.str (js "1111111111"))
    let original := original.setter "AccountId" (.str (js "1111111111"))
    let original := original.setter "BranchId" (.str (js "11"))
    let original := original.setter "OrderRestrictions" (.str (js "1111"))
    let original := original.setter "Side" (.str (js "1"))
    let original := original.setter "OrdType" (.str (js "1"))
    let original := original.setter "OrderQty" (.num ⟨.i64, 8⟩)
    let original := original.setter "Price" (.num ⟨.i64, 8⟩)
    let original := original.setter "ApplId" (.str (js "010"))
    let extendNewOrder010 := fresh .bjse_ExtendNewOrder010
    let extendNewOrder010 := extendNewOrder010.setter "StopPx" (.num ⟨.i64, 8⟩)
    let extendNewOrder010 := extendNewOrder010.setter "MinQty" (.num ⟨.i64, 8⟩)
    let extendNewOrder010 := extendNewOrder010.setter "MaxPriceLevels" (.num ⟨.i16, 2⟩)
    let extendNewOrder010 := extendNewOrder010.setter "TimeInForce" (.str (js "1"))
    let extendNewOrder010 := extendNewOrder010.setter "CashMargin" (.str (js "1"))
    let extendNewOrder010 := extendNewOrder010.setter "SettlType" (.str (js "1"))
    let extendNewOrder010 := extendNewOrder010.setter "SettlPeriod" (.str (js "1"))
    let original := original.setter "ApplExtend" (extendNewOrder010)
    original) = true := by decide +kernel

/-- bjse-bin/src/test/java/com/finproto/bjse/trade/messages/OrderCancelRequestTest.java:11 -/
example : roundTrip (
    let original := fresh .bjse_OrderCancelRequest
    let original := original.setter "ApplId" (.str (js "111"))
    let original := original.setter "SubmittingPbuid" (.str (js "111111"))
    let original := original.setter "SecurityId" (.str (js "11111111"))
    let original := original.setter "SecurityIdsource" (.str (js "1111"))
    let original := original.setter "OwnerType" (.num ⟨.i16, 2⟩)
    let original := original.setter "ClearingFirm" (.str (js "11"))
    let original := original.setter "TransactTime" (.num ⟨.i64, 8⟩)
    let original := original.setter "UserInfo" (.str (js "11111111111111111111111111111111"))
    let original := original.setter "ClOrdId" (.str (js "1111111111"))
    let original := original.setter "OrigClOrdId" (.str (js "1111111111"))
    let original := original.setter "AccountId" (.str (js "1111111111"))
    let original := original.setter "BranchId" (.str (js "11"))
    let original := original.setter "OrderId" (.str (js "1111111111111111"))
    let original := original.setter "OrderQty" (.num ⟨.i64, 8⟩)
    original) = true := by decide +kernel

/-- bjse-bin/src/test/java/com/finproto/bjse/trade/messages/PlatformInfoTest.java:12 -/
example : roundTrip (
    let original := fresh .bjse_PlatformInfo
    let original := original.setter "PlatformId" (.num ⟨.i16, 2⟩)
    let noPartitions := fresh .bjse_PlatformInfo_NoPartitions
    let noPartitions := noPartitions.setter "PartitionNo" (.num ⟨.i32, 4⟩)
    let noPartitions := noPartitions.setter "PartitionName" (.str (js "11111111111111111111"))
    let original := original.setter "NoPartitions" (.list [noPartitions])
    original) = true := by decide +kernel

/-- bjse-bin/src/test/java/com/finproto/bjse/trade/messages/PlatformStateInfoTest.java:11 -/
example : roundTrip (
    let original := fresh .bjse_PlatformStateInfo
    let original := original.setter "PlatformId" (.num ⟨.i16, 2⟩)
    let original := original.setter "PlatformState" (.num ⟨.i16, 2⟩)
    original) = true := by decide +kernel

/-- bjse-bin/src/test/java/com/finproto/bjse/trade/messages/QuoteExtend070Test.java:11 -/
example : roundTrip (
    let original := fresh .bjse_QuoteExtend070
    let original := original.setter "BranchId" (.str (js "11"))
    let original := original.setter "QuoteId" (.str (js "1111111111"))
    let original := original.setter "QuoteRespId" (.str (js "1111111111"))
    let original := original.setter "PrivateQuote" (.num ⟨.i8, 1⟩)
    let original := original.setter "ValidUntilTime" (.num ⟨.i64, 8⟩)
    let original := original.setter "PriceType" (.num ⟨.i8, 1⟩)
    let original := original.setter "CashMargin" (.str (js "1"))
    let original := original.setter "CounterPartyPbuid" (.str (js "111111"))
    let original := original.setter "Memo" (.str (js "111111111111111111111111111111111111111111111111111111111111111111111111111111111111111111111111111111111111111111111111"))
    original) = true := by decide +kernel

/-- bjse-bin/src/test/java/com/finproto/bjse/trade/messages/QuoteExtend071Test.java:11 -/
example : roundTrip (
    let original := fresh .bjse_QuoteExtend071
    original) = true := by decide +kernel

/-- bjse-bin/src/test/java/com/finproto/bjse/trade/messages/QuoteResponseExtend070Test.java:11 -/
example : roundTrip (
    let original := fresh .bjse_QuoteResponseExtend070
    let original := original.setter "CashMargin" (.str (js "1"))
    original) = true := by decide +kernel

/-- bjse-bin/src/test/java/com/finproto/bjse/trade/messages/QuoteResponseTest.java:12 -/
example : roundTrip (
    let original := fresh .bjse_QuoteResponse
    let original := original.setter "ReportingPbuid" (.str (js "111111"))
    let original := original.setter "SubmittingPbuid" (.str (js "111111"))
    let original := original.setter "SecurityId" (.str (js "11111111"))
    let original := original.setter "SecurityIdsource" (.str (js "1111"))
    let original := original.setter "OwnerType" (.num ⟨.i16, 2⟩)
    let original := original.setter "ClearingFirm" (.str (js "11"))
    let original := original.setter "TransactTime" (.num ⟨.i64, 8⟩)
    let original := original.setter "UserInfo" (.str (js "11111111111111111111111111111111"))
    let original := original.setter "ClOrdId" (.str (js "1111111111"))
    let original := original.setter "AccountId" (.str (js "1111111111"))
    let original := original.setter "BranchId" (.str (js "11"))
    let original := original.setter "QuoteRespId" (.str (js "1111111111"))
    let original := original.setter "QuoteRespType" (.num ⟨.i8, 1⟩)
    let original := original.setter "Side" (.str (js "1"))
    let original := original.setter "ValidUntilTime" (.num ⟨.i64, 8⟩)
    let original := original.setter "QuoteType" (.num ⟨.i8, 1⟩)
    let original := original.setter "PriceType" (.num ⟨.i8, 1⟩)
    let quote2 := fresh .bjse_QuoteResponse_Quote2
    let quote2 := quote2.setter "QuoteId" (.str (js "1111111111"))
    let quote2 := quote2.setter "QuotePrice" (.num ⟨.i64, 8⟩)
    let quote2 := quote2.setter "QuoteQty" (.num ⟨.i64, 8⟩)
    let original := original.setter "Quote2" (.list [quote2])
    let original := original.setter "ApplId" (.str (js "070"))
    let quoteResponseExtend070 := fresh .bjse_QuoteResponseExtend070
    let quoteResponseExtend070 := quoteResponseExtend070.setter "CashMargin" (.str (js "1"))
    let original := original.setter "ApplExtend" (quoteResponseExtend070)
    original) = true := by decide +kernel

/-- bjse-bin/src/test/java/com/finproto/bjse/trade/messages/QuoteStatusReportExtend070Test.java:12 -/
example : roundTrip (
    let original := fresh .bjse_QuoteStatusReportExtend070
    let original := original.setter "BranchId" (.str (js "11"))
    let original := original.setter "OrderId" (.str (js "1111111111111111"))
    let original := original.setter "ExecId" (.str (js "1111111111111111"))
    let original := original.setter "QuoteRespId" (.str (js "1111111111"))
    let original := original.setter "PrivateQuote" (.num ⟨.i8, 1⟩)
    let original := original.setter "Side" (.str (js "1"))
    let original := original.setter "PriceType" (.num ⟨.i8, 1⟩)
    let original := original.setter "ValidUntilTime" (.num ⟨.i64, 8⟩)
    let original := original.setter "CashMargin" (.str (js "1"))
    let original := original.setter "CounterPartyPbuid" (.str (js "111111"))
    let original := original.setter "Memo" (.str (js "111111111111111111111111111111111111111111111111111111111111111111111111111111111111111111111111111111111111111111111111"))
    let quote1 := fresh .bjse_QuoteStatusReportExtend070_Quote1
    let quote1 := quote1.setter "QuoteId" (.str (js "1111111111"))
    let quote1 := quote1.setter "QuotePrice" (.num ⟨.i64, 8⟩)
    let quote1 := quote1.setter "QuoteQty" (.num ⟨.i64, 8⟩)
    let original := original.setter "Quote1" (.list [quote1])
    original) = true := by decide +kernel

/-- bjse-bin/src/test/java/com/finproto/bjse/trade/messages/QuoteStatusReportTest.java:12 -/
example : roundTrip (
    let original := fresh .bjse_QuoteStatusReport
    let original := original.setter "PartitionNo" (.num ⟨.i32, 4⟩)
    let original := original.setter "ReportIndex" (.num ⟨.i64, 8⟩)
    let original := original.setter "ReportingPbuid" (.str (js "111111"))
    let original := original.setter "SubmittingPbuid" (.str (js "111111"))
    let original := original.setter "SecurityId" (.str (js "11111111"))
    let original := original.setter "SecurityIdsource" (.str (js "1111"))
    let original := original.setter "OwnerType" (.num ⟨.i16, 2⟩)
    let original := original.setter "ClearingFirm" (.str (js "11"))
    let original := original.setter "TransactTime" (.num ⟨.i64, 8⟩)
    let original := original.setter "UserInfo" (.str (js "11111111111111111111111111111111"))
    let original := original.setter "QuoteMsgId" (.str (js "1111111111"))
    let original := original.setter "AccountId" (.str (js "1111111111"))
    let original := original.setter "QuoteReqId" (.str (js "1111111111"))
    let original := original.setter "QuoteRjectReason" (.num ⟨.i64, 8⟩)
    let original := original.setter "QuoteType" (.num ⟨.i8, 1⟩)
    let original := original.setter "BidPx" (.num ⟨.i64, 8⟩)
    let original := original.setter "OfferPx" (.num ⟨.i64, 8⟩)
    let original := original.setter "BidSize" (.num ⟨.i64, 8⟩)
    let original := original.setter "OfferSize" (.num ⟨.i64, 8⟩)
    let original := original.setter "ApplId" (.str (js "070"))
    let quoteStatusReportExtend070 := fresh .bjse_QuoteStatusReportExtend070
    let quoteStatusReportExtend070 := quoteStatusReportExtend070.setter "BranchId" (.str (js "11"))
    let quoteStatusReportExtend070 := quoteStatusReportExtend070.setter "OrderId" (.str (js "1111111111111111"))
    let quoteStatusReportExtend070 := quoteStatusReportExtend070.setter "ExecId" (.str (js "1111111111111111"))
    let quoteStatusReportExtend070 := quoteStatusReportExtend070.setter "QuoteRespId" (.str (js "1111111111"))
    let quoteStatusReportExtend070 := quoteStatusReportExtend070.setter "PrivateQuote" (.num ⟨.i8, 1⟩)
    let quoteStatusReportExtend070 := quoteStatusReportExtend070.setter "Side" (.str (js "1"))
    let quoteStatusReportExtend070 := quoteStatusReportExtend070.setter "PriceType" (.num ⟨.i8, 1⟩)
    let quoteStatusReportExtend070 := quoteStatusReportExtend070.setter "ValidUntilTime" (.num ⟨.i64, 8⟩)
    let quoteStatusReportExtend070 := quoteStatusReportExtend070.setter "CashMargin" (.str (js "1"))
    let quoteStatusReportExtend070 := quoteStatusReportExtend070.setter "CounterPartyPbuid" (.str (js "111111"))
    let quoteStatusReportExtend070 := quoteStatusReportExtend070.setter "Memo" (.str (js "111111111111111111111111111111111111111111111111111111111111111111111111111111111111111111111111111111111111111111111111"))
    let quote1 := fresh .bjse_QuoteStatusReportExtend070_Quote1
    let quote1 := quote1.setter "QuoteId" (.str (js "1111111111"))
    let quote1 := quote1.setter "QuotePrice" (.num ⟨.i64, 8⟩)
    let quote1 := quote1.setter "QuoteQty" (.num ⟨.i64, 8⟩)
    let quoteStatusReportExtend070 := quoteStatusReportExtend070.setter "Quote1" (.list [quote1])
    let original := original.setter "ApplExtend" (quoteStatusReportExtend070)
    original) = true := by decide +kernel

/-- bjse-bin/src/test/java/com/finproto/bjse/trade/messages/QuoteTest.java:11 -/
example : roundTrip (
    let original := fresh .bjse_Quote
    let original := original.setter "SubmittingPbuid" (.str (js "111111"))
    let original := original.setter "SecurityId" (.str (js "11111111"))
    let original := original.setter "SecurityIdsource" (.str (js "1111"))
    let original := original.setter "OwnerType" (.num ⟨.i16, 2⟩)
    let original := original.setter "ClearingFirm" (.str (js "11"))
    let original := original.setter "TransactTime" (.num ⟨.i64, 8⟩)
    let original := original.setter "UserInfo" (.str (js "11111111111111111111111111111111"))
    let original := original.setter "QuoteMsgId" (.str (js "1111111111"))
    let original := original.setter "AccountId" (.str (js "1111111111"))
    let original := original.setter "QuoteReqId" (.str (js "1111111111"))
    let original := original.setter "QuoteType" (.num ⟨.i8, 1⟩)
    let original := original.setter "BidPx" (.num ⟨.i64, 8⟩)
    let original := original.setter "OfferPx" (.num ⟨.i64, 8⟩)
    let original := original.setter "BidSize" (.num ⟨.i64, 8⟩)
    let original := original.setter "OfferSize" (.num ⟨.i64, 8⟩)
    let original := original.setter "ApplId" (.str (js "070"))
    let quoteExtend070 := fresh .bjse_QuoteExtend070
    let quoteExtend070 := quoteExtend070.setter "BranchId" (.str (js "11"))
    let quoteExtend070 := quoteExtend070.setter "QuoteId" (.str (js "1111111111"))
    let quoteExtend070 := quoteExtend070.setter "QuoteRespId" (.str (js "1111111111"))
    let quoteExtend070 := quoteExtend070.setter "PrivateQuote" (.num ⟨.i8, 1⟩)
    let quoteExtend070 := quoteExtend070.setter "ValidUntilTime" (.num ⟨.i64, 8⟩)
    let quoteExtend070 := quoteExtend070.setter "PriceType" (.num ⟨.i8, 1⟩)
    let quoteExtend070 := quoteExtend070.setter "CashMargin" (.str (js "1"))
    let quoteExtend070 := quoteExtend070.setter "CounterPartyPbuid" (.str (js "111111"))
    let quoteExtend070 := quoteExtend070.setter "Memo" (.str (js "111111111111111111111111111111111111111111111111111111111111111111111111111111111111111111111111111111111111111111111111"))
    let original := original.setter "ApplExtend" (quoteExtend070)
    original) = true := by decide +kernel

/-- bjse-bin/src/test/java/com/finproto/bjse/trade/messages/ReportExtend010Test.java:11 -/
example : roundTrip (
    let original := fresh .bjse_ReportExtend010
    let original := original.setter "CashMargin" (.str (js "1"))
    let original := original.setter "SettlType" (.str (js "1"))
    let original := original.setter "SettlPeriod" (.str (js "1"))
    original) = true := by decide +kernel

/-- bjse-bin/src/test/java/com/finproto/bjse/trade/messages/ReportExtend040Test.java:11 -/
example : roundTrip (
    let original := fresh .bjse_ReportExtend040
    let original := original.setter "CashMargin" (.str (js "1"))
    original) = true := by decide +kernel

/-- bjse-bin/src/test/java/com/finproto/bjse/trade/messages/ReportExtend050Test.java:11 -/
example : roundTrip (
    let original := fresh .bjse_ReportExtend050
    let original := original.setter "ExpirationDays" (.num ⟨.i16, 2⟩)
    let original := original.setter "ExpirationType" (.num ⟨.i8, 1⟩)
    let original := original.setter "MaturityDate" (.num ⟨.i32, 4⟩)
    let original := original.setter "ShareProperty" (.str (js "11"))
    original) = true := by decide +kernel

/-- bjse-bin/src/test/java/com/finproto/bjse/trade/messages/ReportFinishedTest.java:11 -/
example : roundTrip (
    let original := fresh .bjse_ReportFinished
    let original := original.setter "PartitionNo" (.num ⟨.i32, 4⟩)
    let original := original.setter "ReportIndex" (.num ⟨.i64, 8⟩)
    let original := original.setter "PlatformId" (.num ⟨.i16, 2⟩)
    original) = true := by decide +kernel

/-- bjse-bin/src/test/java/com/finproto/bjse/trade/messages/ReportSynchronizationTest.java:12 -/
example : roundTrip (
    let original := fresh .bjse_ReportSynchronization
    let reportPartitionSync := fresh .bjse_ReportSynchronization_ReportPartitionSync
    let reportPartitionSync := reportPartitionSync.setter "PartitionNo" (.num ⟨.i32, 4⟩)
    let reportPartitionSync := reportPartitionSync.setter "ReportIndex" (.num ⟨.i64, 8⟩)
    let original := original.setter "ReportPartitionSync" (.list [reportPartitionSync])
    original) = true := by decide +kernel

/-- bjse-bin/src/test/java/com/finproto/bjse/trade/messages/TradeCaptureCofirmExtend031Test.java:11 -/
example : roundTrip (
    let original := fresh .bjse_TradeCaptureCofirmExtend031
    let original := original.setter "MemberId" (.str (js "111111"))
    let original := original.setter "TraderCode" (.str (js "11111"))
    let original := original.setter "CounterPartyMemberId" (.str (js "111111"))
    let original := original.setter "CounterPartyTraderCode" (.str (js "11111"))
    let original := original.setter "SettlType" (.num ⟨.i8, 1⟩)
    let original := original.setter "SettlPeriod" (.num ⟨.i8, 1⟩)
    let original := original.setter "CashMargin" (.num ⟨.i8, 1⟩)
    let original := original.setter "Memo" (.str (js "111111111111111111111111111111111111111111111111111111111111111111111111111111111111111111111111111111111111111111111111"))
    original) = true := by decide +kernel

/-- bjse-bin/src/test/java/com/finproto/bjse/trade/messages/TradeCaptureCofirmExtend051Test.java:11 -/
example : roundTrip (
    let original := fresh .bjse_TradeCaptureCofirmExtend051
    let original := original.setter "ExpirationDays" (.num ⟨.i16, 2⟩)
    let original := original.setter "ExpirationType" (.num ⟨.i8, 1⟩)
    let original := original.setter "MaturityDate" (.num ⟨.i32, 4⟩)
    let original := original.setter "ShareProperty" (.str (js "11"))
    original) = true := by decide +kernel

/-- bjse-bin/src/test/java/com/finproto/bjse/trade/messages/TradeCaptureCofirmExtend060Test.java:11 -/
example : roundTrip (
    let original := fresh .bjse_TradeCaptureCofirmExtend060
    original) = true := by decide +kernel

/-- bjse-bin/src/test/java/com/finproto/bjse/trade/messages/TradeCaptureCofirmExtend061Test.java:11 -/
example : roundTrip (
    let original := fresh .bjse_TradeCaptureCofirmExtend061
    original) = true := by decide +kernel

/-- bjse-bin/src/test/java/com/finproto/bjse/trade/messages/TradeCaptureCofirmExtend062Test.java:11 -/
example : roundTrip (
    let original := fresh .bjse_TradeCaptureCofirmExtend062
    let original := original.setter "CashMargin" (.num ⟨.i8, 1⟩)
    original) = true := by decide +kernel

/-- bjse-bin/src/test/java/com/finproto/bjse/trade/messages/TradeCaptureCofirmTest.java:11 -/
example : roundTrip (
    let original := fresh .bjse_TradeCaptureCofirm
    let original := original.setter "PartitionNo" (.num ⟨.i32, 4⟩)
    let original := original.setter "ReportIndex" (.num ⟨.i64, 8⟩)
    let original := original.setter "ReportingPbuid" (.str (js "111111"))
    let original := original.setter "SubmittingPbuid" (.str (js "111111"))
    let original := original.setter "SecurityId" (.str (js "11111111"))
    let original := original.setter "SecurityIdsource" (.str (js "1111"))
    let original := original.setter "OwnerType" (.num ⟨.i16, 2⟩)
    let original := original.setter "ClearingFirm" (.str (js "11"))
    let original := original.setter "TransactTime" (.num ⟨.i64, 8⟩)
    let original := original.setter "UserInfo" (.str (js "11111111111111111111111111111111"))
    let original := original.setter "TradeId" (.str (js "1111111111111111"))
    let original := original.setter "TradeReportId" (.str (js "1111111111"))
    let original := original.setter "TradeReportType" (.num ⟨.i8, 1⟩)
    let original := original.setter "TradeReportTransType" (.num ⟨.i8, 1⟩)
    let original := original.setter "TradeHandlingInstr" (.num ⟨.i8, 1⟩)
    let original := original.setter "LastPx" (.num ⟨.i64, 8⟩)
    let original := original.setter "LastQty" (.num ⟨.i64, 8⟩)
    let original := original.setter "TrdType" (.num ⟨.i16, 2⟩)
    let original := original.setter "TrdSubType" (.num ⟨.i16, 2⟩)
    let original := original.setter "ConfirmId" (.num ⟨.i32, 4⟩)
    let original := original.setter "ExecId" (.str (js "1111111111111111"))
    let original := original.setter "Side" (.num ⟨.i8, 1⟩)
    let original := original.setter "Pbuid" (.str (js "111111"))
    let original := original.setter "AccountId" (.str (js "1111111111"))
    let original := original.setter "BranchId" (.str (js "11"))
    let original := original.setter "CounterPartyPbuid" (.str (js "111111"))
    let original := original.setter "CounterPartyAccountId" (.str (js "1111111111"))
    let original := original.setter "CounterPartyBranchId" (.str (js "11"))
    let original := original.setter "ApplId" (.str (js "031"))
    let tradeCaptureCofirmExtend031 := fresh .bjse_TradeCaptureCofirmExtend031
    let tradeCaptureCofirmExtend031 := tradeCaptureCofirmExtend031.setter "MemberId" (.str (js "111111"))
    let tradeCaptureCofirmExtend031 := tradeCaptureCofirmExtend031.setter "TraderCode" (.str (js "11111"))
    let tradeCaptureCofirmExtend031 := tradeCaptureCofirmExtend031.setter "CounterPartyMemberId" (.str (js "111111"))
    let tradeCaptureCofirmExtend031 := tradeCaptureCofirmExtend031.setter "CounterPartyTraderCode" (.str (js "11111"))
    let tradeCaptureCofirmExtend031 := tradeCaptureCofirmExtend031.setter "SettlType" (.num ⟨.i8, 1⟩)
    let tradeCaptureCofirmExtend031 := tradeCaptureCofirmExtend031.setter "SettlPeriod" (.num ⟨.i8, 1⟩)
    let tradeCaptureCofirmExtend031 := tradeCaptureCofirmExtend031.setter "CashMargin" (.num ⟨.i8, 1⟩)
    let tradeCaptureCofirmExtend031 := tradeCaptureCofirmExtend031.setter "Memo" (.str (js "111111111111111111111111111111111111111111111111111111111111111111111111111111111111111111111111111111111111111111111111"))
    let original := original.setter "ApplExtend" (tradeCaptureCofirmExtend031)
    original) = true := by decide +kernel

/-- bjse-bin/src/test/java/com/finproto/bjse/trade/messages/TradeCaptureConfirmExtend031Test.java:11 -/
example : roundTrip (
    let original := fresh .bjse_TradeCaptureConfirmExtend031
    let original := original.setter "MemberId" (.str (js "111111"))
    let original := original.setter "TraderCode" (.str (js "11111"))
    let original := original.setter "CounterPartyMemberId" (.str (js "111111"))
    let original := original.setter "CounterPartyTraderCode" (.str (js "11111"))
    let original := original.setter "SettlType" (.str (js "1"))
    let original := original.setter "SettlPeriod" (.str (js "1"))
    let original := original.setter "CashMargin" (.str (js "1"))
    let original := original.setter "Memo" (.str (js "111111111111111111111111111111111111111111111111111111111111111111111111111111111111111111111111111111111111111111111111"))
    original) = true := by decide +kernel

/-- bjse-bin/src/test/java/com/finproto/bjse/trade/messages/TradeCaptureConfirmExtend051Test.java:11 -/
example : roundTrip (
    let original := fresh .bjse_TradeCaptureConfirmExtend051
    let original := original.setter "ExpirationDays" (.num ⟨.i16, 2⟩)
    let original := original.setter "ExpirationType" (.num ⟨.i8, 1⟩)
    let original := original.setter "MaturityDate" (.num ⟨.i32, 4⟩)
    let original := original.setter "ShareProperty" (.str (js "11"))
    original) = true := by decide +kernel

/-- bjse-bin/src/test/java/com/finproto/bjse/trade/messages/TradeCaptureConfirmExtend060Test.java:11 -/
example : roundTrip (
    let original := fresh .bjse_TradeCaptureConfirmExtend060
    original) = true := by decide +kernel

/-- bjse-bin/src/test/java/com/finproto/bjse/trade/messages/TradeCaptureConfirmExtend061Test.java:11 -/
example : roundTrip (
    let original := fresh .bjse_TradeCaptureConfirmExtend061
    original) = true := by decide +kernel

/-- bjse-bin/src/test/java/com/finproto/bjse/trade/messages/TradeCaptureConfirmExtend062Test.java:11 -/
example : roundTrip (
    let original := fresh .bjse_TradeCaptureConfirmExtend062
    let original := original.setter "CashMargin" (.str (js "1"))
    original) = true := by decide +kernel

/-- bjse-bin/src/test/java/com/finproto/bjse/trade/messages/TradeCaptureConfirmTest.java:11 -/
example : roundTrip (
    let original := fresh .bjse_TradeCaptureConfirm
    let original := original.setter "PartitionNo" (.num ⟨.i32, 4⟩)
    let original := original.setter "ReportIndex" (.num ⟨.i64, 8⟩)
    let original := original.setter "ReportingPbuid" (.str (js "111111"))
    let original := original.setter "SubmittingPbuid" (.str (js "111111"))
    let original := original.setter "SecurityId" (.str (js "11111111"))
    let original := original.setter "SecurityIdsource" (.str (js "1111"))
    let original := original.setter "OwnerType" (.num ⟨.i16, 2⟩)
    let original := original.setter "ClearingFirm" (.str (js "11"))
    let original := original.setter "TransactTime" (.num ⟨.i64, 8⟩)
    let original := original.setter "UserInfo" (.str (js "11111111111111111111111111111111"))
    let original := original.setter "TradeId" (.str (js "1111111111111111"))
    let original := original.setter "TradeReportId" (.str (js "1111111111"))
    let original := original.setter "TradeReportType" (.num ⟨.i8, 1⟩)
    let original := original.setter "TradeReportTransType" (.num ⟨.i8, 1⟩)
    let original := original.setter "TradeHandlingInstr" (.str (js "1"))
    let original := original.setter "LastPx" (.num ⟨.i64, 8⟩)
    let original := original.setter "LastQty" (.num ⟨.i64, 8⟩)
    let original := original.setter "TrdType" (.num ⟨.i16, 2⟩)
    let original := original.setter "TrdSubType" (.num ⟨.i16, 2⟩)
    let original := original.setter "ConfirmId" (.num ⟨.i32, 4⟩)
    let original := original.setter "ExecId" (.str (js "1111111111111111"))
    let original := original.setter "Side" (.str (js "1"))
    let original := original.setter "Pbuid" (.str (js "111111"))
    let original := original.setter "AccountId" (.str (js "1111111111"))
    let original := original.setter "BranchId" (.str (js "11"))
    let original := original.setter "CounterPartyPbuid" (.str (js "111111"))
    let original := original.setter "CounterPartyAccountId" (.str (js "1111111111"))
    let original := original.setter "CounterPartyBranchId" (.str (js "11"))
    let original := original.setter "ApplId" (.str (js "031"))
    let tradeCaptureConfirmExtend031 := fresh .bjse_TradeCaptureConfirmExtend031
    let tradeCaptureConfirmExtend031 := tradeCaptureConfirmExtend031.setter "MemberId" (.str (js "111111"))
    let tradeCaptureConfirmExtend031 := tradeCaptureConfirmExtend031.setter "TraderCode" (.str (js "11111"))
    let tradeCaptureConfirmExtend031 := tradeCaptureConfirmExtend031.setter "CounterPartyMemberId" (.str (js "111111"))
    let tradeCaptureConfirmExtend031 := tradeCaptureConfirmExtend031.setter "CounterPartyTraderCode" (.str (js "11111"))
    let tradeCaptureConfirmExtend031 := tradeCaptureConfirmExtend031.setter "SettlType" (.str (js "1"))
    let tradeCaptureConfirmExtend031 := tradeCaptureConfirmExtend031.setter "SettlPeriod" (.str (js "1"))
    let tradeCaptureConfirmExtend031 := tradeCaptureConfirmExtend031.setter "CashMargin" (.str (js "1"))
    let tradeCaptureConfirmExtend031 := tradeCaptureConfirmExtend031.setter "Memo" (.str (js "111111111111111111111111111111111111111111111111111111111111111111111111111111111111111111111111111111111111111111111111"))
    let original := original.setter "ApplExtend" (tradeCaptureConfirmExtend031)
    original) = true := by decide +kernel

/-- bjse-bin/src/test/java/com/finproto/bjse/trade/messages/TradeCaptureReportAckExtend031Test.java:11 -/
example : roundTrip (
    let original := fresh .bjse_TradeCaptureReportAckExtend031
    let original := original.setter "MemberId" (.str (js "111111"))
    let original := original.setter "TraderCode" (.str (js "11111"))
    let original := original.setter "CounterPartyMemberId" (.str (js "111111"))
    let original := original.setter "CounterPartyTraderCode" (.str (js "11111"))
    let original := original.setter "SettlType" (.str (js "1"))
    let original := original.setter "SettlPeriod" (.str (js "1"))
    let original := original.setter "CashMargin" (.str (js "1"))
    let original := original.setter "Memo" (.str (js "111111111111111111111111111111111111111111111111111111111111111111111111111111111111111111111111111111111111111111111111"))
    original) = true := by decide +kernel

/-- bjse-bin/src/test/java/com/finproto/bjse/trade/messages/TradeCaptureReportAckExtend051Test.java:11 -/
example : roundTrip (
    let original := fresh .bjse_TradeCaptureReportAckExtend051
    let original := original.setter "ExpirationDays" (.num ⟨.i16, 2⟩)
    let original := original.setter "ExpirationType" (.num ⟨.i8, 1⟩)
    let original := original.setter "ShareProperty" (.str (js "11"))
    original) = true := by decide +kernel

/-- bjse-bin/src/test/java/com/finproto/bjse/trade/messages/TradeCaptureReportAckExtend060Test.java:11 -/
example : roundTrip (
    let original := fresh .bjse_TradeCaptureReportAckExtend060
    original) = true := by decide +kernel

/-- bjse-bin/src/test/java/com/finproto/bjse/trade/messages/TradeCaptureReportAckExtend061Test.java:11 -/
example : roundTrip (
    let original := fresh .bjse_TradeCaptureReportAckExtend061
    original) = true := by decide +kernel

/-- bjse-bin/src/test/java/com/finproto/bjse/trade/messages/TradeCaptureReportAckExtend062Test.java:11 -/
example : roundTrip (
    let original := fresh .bjse_TradeCaptureReportAckExtend062
    let original := original.setter "CashMargin" (.str (js "1"))
    original) = true := by decide +kernel

/-- bjse-bin/src/test/java/com/finproto/bjse/trade/messages/TradeCaptureReportAckTest.java:11 -/
example : roundTrip (
    let original := fresh .bjse_TradeCaptureReportAck
    let original := original.setter "PartitionNo" (.num ⟨.i32, 4⟩)
    let original := original.setter "ReportIndex" (.num ⟨.i64, 8⟩)
    let original := original.setter "ReportingPbuid" (.str (js "111111"))
    let original := original.setter "SubmittingPbuid" (.str (js "111111"))
    let original := original.setter "SecurityId" (.str (js "11111111"))
    let original := original.setter "SecurityIdsource" (.str (js "1111"))
    let original := original.setter "OwnerType" (.num ⟨.i16, 2⟩)
    let original := original.setter "ClearingFirm" (.str (js "11"))
    let original := original.setter "TransactTime" (.num ⟨.i64, 8⟩)
    let original := original.setter "UserInfo" (.str (js "11111111111111111111111111111111"))
    let original := original.setter "TradeId" (.str (js "1111111111111111"))
    let original := original.setter "TradeReportId" (.str (js "1111111111"))
    let original := original.setter "TradeReportType" (.num ⟨.i8, 1⟩)
    let original := original.setter "TradeReportTransType" (.num ⟨.i8, 1⟩)
    let original := original.setter "TradeHandlingInstr" (.str (js "1"))
    let original := original.setter "TradeReportRefId" (.str (js "1111111111"))
    let original := original.setter "TrdAckStatus" (.num ⟨.i8, 1⟩)
    let original := original.setter "TrdRptStatus" (.num ⟨.i8, 1⟩)
    let original := original.setter "TradeReportRejectReason" (.num ⟨.i16, 2⟩)
    let original := original.setter "LastPx" (.num ⟨.i64, 8⟩)
    let original := original.setter "LastQty" (.num ⟨.i64, 8⟩)
    let original := original.setter "TrdType" (.num ⟨.i16, 2⟩)
    let original := original.setter "TrdSubType" (.num ⟨.i16, 2⟩)
    let original := original.setter "ConfirmId" (.num ⟨.i32, 4⟩)
    let original := original.setter "ExecId" (.str (js "1111111111111111"))
    let original := original.setter "Side" (.str (js "1"))
    let original := original.setter "Pbuid" (.str (js "111111"))
    let original := original.setter "AccountId" (.str (js "1111111111"))
    let original := original.setter "BranchId" (.str (js "11"))
    let original := original.setter "CounterPartyPbuid" (.str (js "111111"))
    let original := original.setter "CounterPartyAccountId" (.str (js "1111111111"))
    let original := original.setter "CounterPartyBranchId" (.str (js "11"))
    let original := original.setter "ApplId" (.str (js "031"))
    let tradeCaptureReportAckExtend031 := fresh .bjse_TradeCaptureReportAckExtend031
    let tradeCaptureReportAckExtend031 := tradeCaptureReportAckExtend031.setter "MemberId" (.str (js "111111"))
    let tradeCaptureReportAckExtend031 := tradeCaptureReportAckExtend031.setter "TraderCode" (.str (js "11111"))
    let tradeCaptureReportAckExtend031 := tradeCaptureReportAckExtend031.setter "CounterPartyMemberId" (.str (js "111111"))
    let tradeCaptureReportAckExtend031 := tradeCaptureReportAckExtend031.setter "CounterPartyTraderCode" (.str (js "11111"))
    let tradeCaptureReportAckExtend031 := tradeCaptureReportAckExtend031.setter "SettlType" (.str (js "1"))
    let tradeCaptureReportAckExtend031 := tradeCaptureReportAckExtend031.setter "SettlPeriod" (.str (js "1"))
    let tradeCaptureReportAckExtend031 := tradeCaptureReportAckExtend031.setter "CashMargin" (.str (js "1"))
    let tradeCaptureReportAckExtend031 := tradeCaptureReportAckExtend031.setter "Memo" (.str (js "111111111111111111111111111111111111111111111111111111111111111111111111111111111111111111111111111111111111111111111111"))
    let original := original.setter "ApplExtend" (tradeCaptureReportAckExtend031)
    original) = true := by decide +kernel

/-- bjse-bin/src/test/java/com/finproto/bjse/trade/messages/TradeCaptureReportExtend031Test.java:11 -/
example : roundTrip (
    let original := fresh .bjse_TradeCaptureReportExtend031
    let original := original.setter "MemberId" (.str (js "111111"))
    let original := original.setter "TraderCode" (.str (js "11111"))
    let original := original.setter "CounterPartyMemberId" (.str (js "111111"))
    let original := original.setter "CounterPartyTraderCode" (.str (js "11111"))
    let original := original.setter "SettlType" (.str (js "1"))
    let original := original.setter "SettlPeriod" (.str (js "1"))
    let original := original.setter "CashMargin" (.str (js "1"))
    let original := original.setter "Memo" (.str (js "111111111111111111111111111111111111111111111111111111111111111111111111111111111111111111111111111111111111111111111111"))
    original) = true := by decide +kernel

/-- bjse-bin/src/test/java/com/finproto/bjse/trade/messages/TradeCaptureReportExtend051Test.java:11 -/
example : roundTrip (
    let original := fresh .bjse_TradeCaptureReportExtend051
    let original := original.setter "ExpirationDays" (.num ⟨.i16, 2⟩)
    let original := original.setter "ExpirationType" (.num ⟨.i8, 1⟩)
    let original := original.setter "ShareProperty" (.str (js "11"))
    original) = true := by decide +kernel

/-- bjse-bin/src/test/java/com/finproto/bjse/trade/messages/TradeCaptureReportExtend060Test.java:11 -/
example : roundTrip (
    let original := fresh .bjse_TradeCaptureReportExtend060
    original) = true := by decide +kernel

/-- bjse-bin/src/test/java/com/finproto/bjse/trade/messages/TradeCaptureReportExtend061Test.java:11 -/
example : roundTrip (
    let original := fresh .bjse_TradeCaptureReportExtend061
    original) = true := by decide +kernel

/-- bjse-bin/src/test/java/com/finproto/bjse/trade/messages/TradeCaptureReportExtend062Test.java:11 -/
example : roundTrip (
    let original := fresh .bjse_TradeCaptureReportExtend062
    let original := original.setter "CashMargin" (.str (js "1"))
    original) = true := by decide +kernel

/-- bjse-bin/src/test/java/com/finproto/bjse/trade/messages/TradeCaptureReportTest.java:11 -/
example : roundTrip (
    let original := fresh .bjse_TradeCaptureReport
    let original := original.setter "SubmittingPbuid" (.str (js "111111"))
    let original := original.setter "SecurityId" (.str (js "11111111"))
    let original := original.setter "SecurityIdsource" (.str (js "1111"))
    let original := original.setter "OwnerType" (.num ⟨.i16, 2⟩)
    let original := original.setter "ClearingFirm" (.str (js "11"))
    let original := original.setter "TransactTime" (.num ⟨.i64, 8⟩)
    let original := original.setter "UserInfo" (.str (js "11111111111111111111111111111111"))
    let original := original.setter "TradeReportId" (.str (js "1111111111"))
    let original := original.setter "TradeReportType" (.num ⟨.i8, 1⟩)
    let original := original.setter "TradeReportTransType" (.num ⟨.i8, 1⟩)
    let original := original.setter "TradeHandlingInstr" (.str (js "1"))
    let original := original.setter "TradeReportRefId" (.str (js "1111111111"))
    let original := original.setter "LastPx" (.num ⟨.i64, 8⟩)
    let original := original.setter "LastQty" (.num ⟨.i64, 8⟩)
    let original := original.setter "TrdType" (.num ⟨.i16, 2⟩)
    let original := original.setter "TrdSubType" (.num ⟨.i16, 2⟩)
    let original := original.setter "ConfirmId" (.num ⟨.i32, 4⟩)
    let original := original.setter "Side" (.str (js "1"))
    let original := original.setter "Pbuid" (.str (js "111111"))
    let original := original.setter "AccountId" (.str (js "1111111111"))
    let original := original.setter "BranchId" (.str (js "11"))
    let original := original.setter "CounterPartyPbuid" (.str (js "111111"))
    let original := original.setter "CounterPartyAccountId" (.str (js "1111111111"))
    let original := original.setter "CounterPartyBranchId" (.str (js "11"))
    let original := original.setter "ApplId" (.str (js "031"))
    let tradeCaptureReportExtend031 := fresh .bjse_TradeCaptureReportExtend031
    let tradeCaptureReportExtend031 := tradeCaptureReportExtend031.setter "MemberId" (.str (js "111111"))
    let tradeCaptureReportExtend031 := tradeCaptureReportExtend031.setter "TraderCode" (.str (js "11111"))
    let tradeCaptureReportExtend031 := tradeCaptureReportExtend031.setter "CounterPartyMemberId" (.str (js "111111"))
    let tradeCaptureReportExtend031 := tradeCaptureReportExtend031.setter "CounterPartyTraderCode" (.str (js "11111"))
    let tradeCaptureReportExtend031 := tradeCaptureReportExtend031.setter "SettlType" (.str (js "1"))
    let tradeCaptureReportExtend031 := tradeCaptureReportExtend031.setter "SettlPeriod" (.str (js "1"))
    let tradeCaptureReportExtend031 := tradeCaptureReportExtend031.setter "CashMargin" (.str (js "1"))
    let tradeCaptureReportExtend031 := tradeCaptureReportExtend031.setter "Memo" (.str (js "111111111111111111111111111111111111111111111111111111111111111111111111111111111111111111111111111111111111111111111111"))
    let original := original.setter "ApplExtend" (tradeCaptureReportExtend031)
    original) = true := by decide +kernel

/-- bjse-bin/src/test/java/com/finproto/bjse/trade/messages/TradingSessionStatusTest.java:11 -/
example : roundTrip (
    let original := fresh .bjse_TradingSessionStatus
    let original := original.setter "MarketId" (.str (js "111"))
    let original := original.setter "MarketSegmentId" (.str (js "111"))
    let original := original.setter "TradingSessionId" (.str (js "111"))
    let original := original.setter "TradingSessionSubId" (.str (js "111"))
    let original := original.setter "TradSesStatus" (.num ⟨.i8, 1⟩)
    let original := original.setter "TradSesStartTime" (.num ⟨.i64, 8⟩)
    original) = true := by decide +kernel

end FinProto.Tests.Bjse
