import Verif.Tests.Common
/-
The unit tests of /repo/sse-bin/src/test, transcribed by tools/tests.py.
-/
namespace FinProto.Tests.Sse

/-- sse-bin/src/test/java/com/finproto/sse/bin/messages/CancelRejectTest.java:11 -/
example : roundTrip (
    let original := fresh .sse_CancelReject
    let original := original.setter "Pbu" (.str (js "11111111"))
    let original := original.setter "SetId" (.num ⟨.i32, 4⟩)
    let original := original.setter "ReportIndex" (.num ⟨.i64, 8⟩)
    let original := original.setter "BizId" (.num ⟨.i32, 4⟩)
    let original := original.setter "BizPbu" (.str (js "11111111"))
    let original := original.setter "ClOrdId" (.str (js "1111111111"))
    let original := original.setter "SecurityId" (.str (js "111111111111"))
    let original := original.setter "OrigClOrdId" (.str (js "1111111111"))
    let original := original.setter "BranchId" (.str (js "11111111"))
    let original := original.setter "CxlRejReason" (.num ⟨.i32, 4⟩)
    let original := original.setter "TradeDate" (.num ⟨.i32, 4⟩)
    let original := original.setter "TransactTime" (.num ⟨.i64, 8⟩)
    let original := original.setter "UserInfo" (.str (js "11111111111111111111111111111111"))
    original) = true := by decide +kernel

/-- sse-bin/src/test/java/com/finproto/sse/bin/messages/ConfirmTest.java:11 -/
example : roundTrip (
    let original := fresh .sse_Confirm
    let original := original.setter "Pbu" (.str (js "11111111"))
    let original := original.setter "SetId" (.num ⟨.i32, 4⟩)
    let original := original.setter "ReportIndex" (.num ⟨.i64, 8⟩)
    let original := original.setter "BizId" (.num ⟨.i32, 4⟩)
    let original := original.setter "ExecType" (.str (js "1"))
    let original := original.setter "BizPbu" (.str (js "11111111"))
    let original := original.setter "ClOrdId" (.str (js "1111111111"))
    let original := original.setter "SecurityId" (.str (js "111111111111"))
    let original := original.setter "Account" (.str (js "1111111111111"))
    let original := original.setter "OwnerType" (.num ⟨.i8, 1⟩)
    let original := original.setter "Side" (.str (js "1"))
    let original := original.setter "Price" (.num ⟨.i64, 8⟩)
    let original := original.setter "OrderQty" (.num ⟨.i64, 8⟩)
    let original := original.setter "LeavesQty" (.num ⟨.i64, 8⟩)
    let original := original.setter "CxlQty" (.num ⟨.i64, 8⟩)
    let original := original.setter "OrdType" (.str (js "1"))
    let original := original.setter "TimeInForce" (.str (js "1"))
    let original := original.setter "OrdStatus" (.str (js "1"))
    let original := original.setter "CreditTag" (.str (js "11"))
    let original := original.setter "OrigClOrdId" (.str (js "1111111111"))
    let original := original.setter "ClearingFirm" (.str (js "11111111"))
    let original := original.setter "BranchId" (.str (js "11111111"))
    let original := original.setter "OrdRejReason" (.num ⟨.i32, 4⟩)
    let original := original.setter "OrdCnfmId" (.str (js "1111111111111111"))
    let original := original.setter "OrigOrdCnfmId" (.str (js "1111111111111111"))
    let original := original.setter "TradeDate" (.num ⟨.i32, 4⟩)
    let original := original.setter "TransactTime" (.num ⟨.i64, 8⟩)
    let original := original.setter "UserInfo" (.str (js "11111111111111111111111111111111"))
    original) = true := by decide +kernel

/-- sse-bin/src/test/java/com/finproto/sse/bin/messages/ExecRptEndOfStreamTest.java:11 -/
example : roundTrip (
    let original := fresh .sse_ExecRptEndOfStream
    let original := original.setter "Pbu" (.str (js "11111111"))
    let original := original.setter "SetId" (.num ⟨.i32, 4⟩)
    let original := original.setter "EndReportIndex" (.num ⟨.i64, 8⟩)
    original) = true := by decide +kernel

/-- sse-bin/src/test/java/com/finproto/sse/bin/messages/ExecRptInfoTest.java:12 -/
example : roundTrip (
    let original := fresh .sse_ExecRptInfo
    let original := original.setter "PlatformId" (.num ⟨.i16, 2⟩)
    let original := original.setter "Pbu" (.list [.str (js "11111111")])
    let original := original.setter "SetId" (.list [.num ⟨.i32, 4⟩])
    original) = true := by decide +kernel

/-- sse-bin/src/test/java/com/finproto/sse/bin/messages/ExecRptSyncRspTest.java:12 -/
example : roundTrip (
    let original := fresh .sse_ExecRptSyncRsp
    let subExecRptSyncRsp := fresh .sse_ExecRptSyncRsp_SubExecRptSyncRsp
    let subExecRptSyncRsp := subExecRptSyncRsp.setter "Pbu" (.str (js "11111111"))
    let subExecRptSyncRsp := subExecRptSyncRsp.setter "SetId" (.num ⟨.i32, 4⟩)
    let subExecRptSyncRsp := subExecRptSyncRsp.setter "BeginReportIndex" (.num ⟨.i64, 8⟩)
    let subExecRptSyncRsp := subExecRptSyncRsp.setter "EndReportIndex" (.num ⟨.i64, 8⟩)
    let subExecRptSyncRsp := subExecRptSyncRsp.setter "RejReason" (.num ⟨.i32, 4⟩)
    let subExecRptSyncRsp := subExecRptSyncRsp.setter "Text" (.str (js "1111111111111111111111111111111111111111111111111111111111111111"))
    let original := original.setter "SubExecRptSyncRsp" (.list [subExecRptSyncRsp])
    original) = true := by decide +kernel

/-- sse-bin/src/test/java/com/finproto/sse/bin/messages/ExecRptSyncTest.java:12 -/
example : roundTrip (
    let original := fresh .sse_ExecRptSync
    let subExecRptSync := fresh .sse_ExecRptSync_SubExecRptSync
    let subExecRptSync := subExecRptSync.setter "Pbu" (.str (js "11111111"))
    let subExecRptSync := subExecRptSync.setter "SetId" (.num ⟨.i32, 4⟩)
    let subExecRptSync := subExecRptSync.setter "BeginReportIndex" (.num ⟨.i64, 8⟩)
    let original := original.setter "SubExecRptSync" (.list [subExecRptSync])
    original) = true := by decide +kernel

/-- sse-bin/src/test/java/com/finproto/sse/bin/messages/HeartbeatTest.java:11 -/
example : roundTrip (
    let original := fresh .sse_Heartbeat
    original) = true := by decide +kernel

/-- sse-bin/src/test/java/com/finproto/sse/bin/messages/LogonTest.java:11 -/
example : roundTrip (
    let original := fresh .sse_Logon
    let original := original.setter "SenderCompId" (.str (js "11111111111111111111111111111111"))
    let original := original.setter "TargetCompId" (.str (js "11111111111111111111111111111111"))
    let original := original.setter "HeartBtInt" (.num ⟨.i16, 2⟩)
    let original := original.setter "PrtclVersion" (.str (js "11111111"))
    let original := original.setter "TradeDate" (.num ⟨.i32, 4⟩)
    let original := original.setter "Qsize" (.num ⟨.i32, 4⟩)
    original) = true := by decide +kernel

/-- sse-bin/src/test/java/com/finproto/sse/bin/messages/LogoutTest.java:11 -/
example : roundTrip (
    let original := fresh .sse_Logout
    let original := original.setter "SessionStatus" (.num ⟨.i32, 4⟩)
    let original := original.setter "Text" (.str (js "1111111111111111111111111111111111111111111111111111111111111111"))
    original) = true := by decide +kernel

/-- sse-bin/src/test/java/com/finproto/sse/bin/messages/NewOrderSingleTest.java:11 -/
example : roundTrip (
    let original := fresh .sse_NewOrderSingle
    let original := original.setter "BizId" (.num ⟨.i32, 4⟩)
    let original := original.setter "BizPbu" (.str (js "11111111"))
    let original := original.setter "ClOrdId" (.str (js "1111111111"))
    let original := original.setter "SecurityId" (.str (js "111111111111"))
    let original := original.setter "Account" (.str (js "1111111111111"))
    let original := original.setter "OwnerType" (.num ⟨.i8, 1⟩)
    let original := original.setter "Side" (.str (js "1"))
    let original := original.setter "Price" (.num ⟨.i64, 8⟩)
    let original := original.setter "OrderQty" (.num ⟨.i64, 8⟩)
    let original := original.setter "OrdType" (.str (js "1"))
    let original := original.setter "TimeInForce" (.str (js "1"))
    let original := original.setter "TransactTime" (.num ⟨.i64, 8⟩)
    let original := original.setter "CreditTag" (.str (js "11"))
    let original := original.setter "ClearingFirm" (.str (js "11111111"))
    let original := original.setter "BranchId" (.str (js "11111111"))
    let original := original.setter "UserInfo" (.str (js "11111111111111111111111111111111"))
    original) = true := by decide +kernel

/-- sse-bin/src/test/java/com/finproto/sse/bin/messages/OrderCancelTest.java:11 -/
example : roundTrip (
    let original := fresh .sse_OrderCancel
    let original := original.setter "BizId" (.num ⟨.i32, 4⟩)
    let original := original.setter "BizPbu" (.str (js "11111111"))
    let original := original.setter "ClOrdId" (.str (js "1111111111"))
    let original := original.setter "SecurityId" (.str (js "111111111111"))
    let original := original.setter "Account" (.str (js "1111111111111"))
    let original := original.setter "OwnerType" (.num ⟨.i8, 1⟩)
    let original := original.setter "Side" (.str (js "1"))
    let original := original.setter "OrigClOrdId" (.str (js "1111111111"))
    let original := original.setter "TransactTime" (.num ⟨.i64, 8⟩)
    let original := original.setter "BranchId" (.str (js "11111111"))
    let original := original.setter "UserInfo" (.str (js "11111111111111111111111111111111"))
    original) = true := by decide +kernel

/-- sse-bin/src/test/java/com/finproto/sse/bin/messages/OrderRejectTest.java:11 -/
example : roundTrip (
    let original := fresh .sse_OrderReject
    let original := original.setter "BizId" (.num ⟨.i32, 4⟩)
    let original := original.setter "BizPbu" (.str (js "11111111"))
    let original := original.setter "ClOrdId" (.str (js "1111111111"))
    let original := original.setter "SecurityId" (.str (js "111111111111"))
    let original := original.setter "OrdRejReason" (.num ⟨.i32, 4⟩)
    let original := original.setter "TradeDate" (.num ⟨.i32, 4⟩)
    let original := original.setter "TransactTime" (.num ⟨.i64, 8⟩)
    let original := original.setter "UserInfo" (.str (js "11111111111111111111111111111111"))
    original) = true := by decide +kernel

/-- sse-bin/src/test/java/com/finproto/sse/bin/messages/PlatformStateTest.java:11 -/
example : roundTrip (
    let original := fresh .sse_PlatformState
    let original := original.setter "PlatformId" (.num ⟨.i16, 2⟩)
    let original := original.setter "PlatformState" (.num ⟨.i16, 2⟩)
    original) = true := by decide +kernel

/-- sse-bin/src/test/java/com/finproto/sse/bin/messages/ReportTest.java:11 -/
example : roundTrip (
    let original := fresh .sse_Report
    let original := original.setter "Pbu" (.str (js "11111111"))
    let original := original.setter "SetId" (.num ⟨.i32, 4⟩)
    let original := original.setter "ReportIndex" (.num ⟨.i64, 8⟩)
    let original := original.setter "BizId" (.num ⟨.i32, 4⟩)
    let original := original.setter "ExecType" (.str (js "1"))
    let original := original.setter "BizPbu" (.str (js "11111111"))
    let original := original.setter "ClOrdId" (.str (js "1111111111"))
    let original := original.setter "SecurityId" (.str (js "111111111111"))
    let original := original.setter "Account" (.str (js "1111111111111"))
    let original := original.setter "OwnerType" (.num ⟨.i8, 1⟩)
    let original := original.setter "OrderEntryTime" (.num ⟨.i64, 8⟩)
    let original := original.setter "LastPx" (.num ⟨.i64, 8⟩)
    let original := original.setter "LastQty" (.num ⟨.i64, 8⟩)
    let original := original.setter "GrossTradeAmt" (.num ⟨.i64, 8⟩)
    let original := original.setter "Side" (.str (js "1"))
    let original := original.setter "OrderQty" (.num ⟨.i64, 8⟩)
    let original := original.setter "LeavesQty" (.num ⟨.i64, 8⟩)
    let original := original.setter "OrdStatus" (.str (js "1"))
    let original := original.setter "CreditTag" (.str (js "11"))
    let original := original.setter "ClearingFirm" (.str (js "11111111"))
    let original := original.setter "BranchId" (.str (js "11111111"))
    let original := original.setter "TrdCnfmId" (.str (js "1111111111111111"))
    let original := original.setter "OrdCnfmId" (.str (js "1111111111111111"))
    let original := original.setter "TradeDate" (.num ⟨.i32, 4⟩)
    let original := original.setter "TransactTime" (.num ⟨.i64, 8⟩)
    let original := original.setter "UserInfo" (.str (js "11111111111111111111111111111111"))
    original) = true := by decide +kernel

/-- sse-bin/src/test/java/com/finproto/sse/bin/messages/SseBinaryTest.java:11 -/
example : roundTrip (
    let original := fresh .sse_SseBinary
    let original := original.setter "MsgSeqNum" (.num ⟨.i64, 8⟩)
    let original := original.setter "MsgType" (.num ⟨.i32, 33⟩)
    let heartbeat := fresh .sse_Heartbeat
    let original := original.setter "Body" (heartbeat)
    let original := original.setter "Checksum" (.num ⟨.i32, 4⟩)
    original) = true := by decide +kernel

end FinProto.Tests.Sse
