import Verif.Spec.LayoutTypes
/- GENERATED by tools/gen.py from the unit tests in /repo/*/src/test; do not edit. -/
namespace FinProto.Layout

/-- sse-bin/src/test/java/com/finproto/sse/bin/messages/CancelRejectTest.java:11 -/
def sse_CancelReject : List (String × WTy) := [("pbu", .text 8 0x20 false),
  ("setId", .num .i32),
  ("reportIndex", .num .i64),
  ("bizId", .num .i32),
  ("bizPbu", .text 8 0x20 false),
  ("clOrdId", .text 10 0x20 false),
  ("securityId", .text 12 0x20 false),
  ("origClOrdId", .text 10 0x20 false),
  ("branchId", .text 8 0x20 false),
  ("cxlRejReason", .num .i32),
  ("tradeDate", .num .i32),
  ("transactTime", .num .i64),
  ("userInfo", .text 32 0x20 false)]

/-- sse-bin/src/test/java/com/finproto/sse/bin/messages/ConfirmTest.java:11 -/
def sse_Confirm : List (String × WTy) := [("pbu", .text 8 0x20 false),
  ("setId", .num .i32),
  ("reportIndex", .num .i64),
  ("bizId", .num .i32),
  ("execType", .text 1 0x20 false),
  ("bizPbu", .text 8 0x20 false),
  ("clOrdId", .text 10 0x20 false),
  ("securityId", .text 12 0x20 false),
  ("account", .text 13 0x20 false),
  ("ownerType", .num .i8),
  ("side", .text 1 0x20 false),
  ("price", .num .i64),
  ("orderQty", .num .i64),
  ("leavesQty", .num .i64),
  ("cxlQty", .num .i64),
  ("ordType", .text 1 0x20 false),
  ("timeInForce", .text 1 0x20 false),
  ("ordStatus", .text 1 0x20 false),
  ("creditTag", .text 2 0x20 false),
  ("origClOrdId", .text 10 0x20 false),
  ("clearingFirm", .text 8 0x20 false),
  ("branchId", .text 8 0x20 false),
  ("ordRejReason", .num .i32),
  ("ordCnfmId", .text 16 0x20 false),
  ("origOrdCnfmId", .text 16 0x20 false),
  ("tradeDate", .num .i32),
  ("transactTime", .num .i64),
  ("userInfo", .text 32 0x20 false)]

/-- sse-bin/src/test/java/com/finproto/sse/bin/messages/ExecRptEndOfStreamTest.java:11 -/
def sse_ExecRptEndOfStream : List (String × WTy) := [("pbu", .text 8 0x20 false),
  ("setId", .num .i32),
  ("endReportIndex", .num .i64)]

/-- sse-bin/src/test/java/com/finproto/sse/bin/messages/ExecRptInfoTest.java:12 -/
def sse_ExecRptInfo : List (String × WTy) := [("platformId", .num .i16),
  ("pbu", .list (.text 8 0x20 false)),
  ("setId", .list (.num .i32))]

/-- sse-bin/src/test/java/com/finproto/sse/bin/messages/ExecRptSyncTest.java:12 -/
def sse_ExecRptSync : List (String × WTy) := [("subExecRptSync", .list (.sub .sse_ExecRptSync_SubExecRptSync))]

/-- sse-bin/src/test/java/com/finproto/sse/bin/messages/ExecRptSyncTest.java:12 -/
def sse_ExecRptSync_SubExecRptSync : List (String × WTy) := [("pbu", .text 8 0x20 false),
  ("setId", .num .i32),
  ("beginReportIndex", .num .i64)]

/-- sse-bin/src/test/java/com/finproto/sse/bin/messages/ExecRptSyncRspTest.java:12 -/
def sse_ExecRptSyncRsp : List (String × WTy) := [("subExecRptSyncRsp", .list (.sub .sse_ExecRptSyncRsp_SubExecRptSyncRsp))]

/-- sse-bin/src/test/java/com/finproto/sse/bin/messages/ExecRptSyncRspTest.java:12 -/
def sse_ExecRptSyncRsp_SubExecRptSyncRsp : List (String × WTy) := [("pbu", .text 8 0x20 false),
  ("setId", .num .i32),
  ("beginReportIndex", .num .i64),
  ("endReportIndex", .num .i64),
  ("rejReason", .num .i32),
  ("text", .text 64 0x20 false)]

/-- sse-bin/src/test/java/com/finproto/sse/bin/messages/HeartbeatTest.java:11 -/
def sse_Heartbeat : List (String × WTy) := []

/-- sse-bin/src/test/java/com/finproto/sse/bin/messages/LogonTest.java:11 -/
def sse_Logon : List (String × WTy) := [("senderCompId", .text 32 0x20 false),
  ("targetCompId", .text 32 0x20 false),
  ("heartBtInt", .num .i16),
  ("prtclVersion", .text 8 0x20 false),
  ("tradeDate", .num .i32),
  ("qsize", .num .i32)]

/-- sse-bin/src/test/java/com/finproto/sse/bin/messages/LogoutTest.java:11 -/
def sse_Logout : List (String × WTy) := [("sessionStatus", .num .i32),
  ("text", .text 64 0x20 false)]

/-- sse-bin/src/test/java/com/finproto/sse/bin/messages/NewOrderSingleTest.java:11 -/
def sse_NewOrderSingle : List (String × WTy) := [("bizId", .num .i32),
  ("bizPbu", .text 8 0x20 false),
  ("clOrdId", .text 10 0x20 false),
  ("securityId", .text 12 0x20 false),
  ("account", .text 13 0x20 false),
  ("ownerType", .num .i8),
  ("side", .text 1 0x20 false),
  ("price", .num .i64),
  ("orderQty", .num .i64),
  ("ordType", .text 1 0x20 false),
  ("timeInForce", .text 1 0x20 false),
  ("transactTime", .num .i64),
  ("creditTag", .text 2 0x20 false),
  ("clearingFirm", .text 8 0x20 false),
  ("branchId", .text 8 0x20 false),
  ("userInfo", .text 32 0x20 false)]

/-- sse-bin/src/test/java/com/finproto/sse/bin/messages/OrderCancelTest.java:11 -/
def sse_OrderCancel : List (String × WTy) := [("bizId", .num .i32),
  ("bizPbu", .text 8 0x20 false),
  ("clOrdId", .text 10 0x20 false),
  ("securityId", .text 12 0x20 false),
  ("account", .text 13 0x20 false),
  ("ownerType", .num .i8),
  ("side", .text 1 0x20 false),
  ("origClOrdId", .text 10 0x20 false),
  ("transactTime", .num .i64),
  ("branchId", .text 8 0x20 false),
  ("userInfo", .text 32 0x20 false)]

/-- sse-bin/src/test/java/com/finproto/sse/bin/messages/OrderRejectTest.java:11 -/
def sse_OrderReject : List (String × WTy) := [("bizId", .num .i32),
  ("bizPbu", .text 8 0x20 false),
  ("clOrdId", .text 10 0x20 false),
  ("securityId", .text 12 0x20 false),
  ("ordRejReason", .num .i32),
  ("tradeDate", .num .i32),
  ("transactTime", .num .i64),
  ("userInfo", .text 32 0x20 false)]

/-- sse-bin/src/test/java/com/finproto/sse/bin/messages/PlatformStateTest.java:11 -/
def sse_PlatformState : List (String × WTy) := [("platformId", .num .i16),
  ("platformState", .num .i16)]

/-- sse-bin/src/test/java/com/finproto/sse/bin/messages/ReportTest.java:11 -/
def sse_Report : List (String × WTy) := [("pbu", .text 8 0x20 false),
  ("setId", .num .i32),
  ("reportIndex", .num .i64),
  ("bizId", .num .i32),
  ("execType", .text 1 0x20 false),
  ("bizPbu", .text 8 0x20 false),
  ("clOrdId", .text 10 0x20 false),
  ("securityId", .text 12 0x20 false),
  ("account", .text 13 0x20 false),
  ("ownerType", .num .i8),
  ("orderEntryTime", .num .i64),
  ("lastPx", .num .i64),
  ("lastQty", .num .i64),
  ("grossTradeAmt", .num .i64),
  ("side", .text 1 0x20 false),
  ("orderQty", .num .i64),
  ("leavesQty", .num .i64),
  ("ordStatus", .text 1 0x20 false),
  ("creditTag", .text 2 0x20 false),
  ("clearingFirm", .text 8 0x20 false),
  ("branchId", .text 8 0x20 false),
  ("trdCnfmId", .text 16 0x20 false),
  ("ordCnfmId", .text 16 0x20 false),
  ("tradeDate", .num .i32),
  ("transactTime", .num .i64),
  ("userInfo", .text 32 0x20 false)]

end FinProto.Layout
