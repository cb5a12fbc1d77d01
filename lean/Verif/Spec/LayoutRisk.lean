import Verif.Spec.LayoutTypes
/- GENERATED by tools/gen.py from the unit tests in /repo/*/src/test; do not edit. -/
namespace FinProto.Layout

/-- risk-bin/src/test/java/com/finproto/risk/bin/messages/CancelRejectTest.java:11 -/
def risk_CancelReject : List (String × WTy) := [("uniqueOrderId", .vstr),
  ("uniqueOrigOrderId", .vstr),
  ("clOrdId", .vstr),
  ("origClOrdId", .vstr),
  ("cxlRejReason", .num .i32)]

/-- risk-bin/src/test/java/com/finproto/risk/bin/messages/ExecutionReportTest.java:11 -/
def risk_ExecutionReport : List (String × WTy) := [("uniqueOrderId", .vstr),
  ("clOrdId", .vstr),
  ("ordCnfmId", .vstr),
  ("lastPx", .num .i64),
  ("lastQty", .num .i64),
  ("ordStatus", .text 1 0x20 false)]

/-- risk-bin/src/test/java/com/finproto/risk/bin/messages/NewOrderTest.java:11 -/
def risk_NewOrder : List (String × WTy) := [("uniqueOrderId", .vstr),
  ("clOrdId", .vstr),
  ("securityId", .vstr),
  ("side", .text 1 0x20 false),
  ("price", .num .i64),
  ("orderQty", .num .i64),
  ("ordType", .text 1 0x20 false),
  ("account", .vstr)]

/-- risk-bin/src/test/java/com/finproto/risk/bin/messages/OrderCancelTest.java:11 -/
def risk_OrderCancel : List (String × WTy) := [("uniqueOrderId", .vstr),
  ("uniqueOrigOrderId", .vstr),
  ("clOrdId", .vstr),
  ("origClOrdId", .vstr),
  ("securityId", .vstr)]

/-- risk-bin/src/test/java/com/finproto/risk/bin/messages/OrderConfirmTest.java:11 -/
def risk_OrderConfirm : List (String × WTy) := [("uniqueOrderId", .vstr),
  ("uniqueOrigOrderId", .vstr),
  ("clOrdId", .vstr),
  ("execType", .text 1 0x20 false),
  ("ordRejReason", .num .i32),
  ("ordCnfmId", .vstr)]

end FinProto.Layout
