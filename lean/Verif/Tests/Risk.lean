import Verif.Tests.Common
/-
The unit tests of /repo/risk-bin/src/test, transcribed by tools/tests.py.
-/
namespace FinProto.Tests.Risk

/-- risk-bin/src/test/java/com/finproto/risk/bin/messages/CancelRejectTest.java:11 -/
example : roundTrip (
    let original := fresh .risk_CancelReject
    let original := original.setter "UniqueOrderId" (.str (js "example"))
    let original := original.setter "UniqueOrigOrderId" (.str (js "example"))
    let original := original.setter "ClOrdId" (.str (js "example"))
    let original := original.setter "OrigClOrdId" (.str (js "example"))
    let original := original.setter "CxlRejReason" (.num ⟨.i32, 4⟩)
    original) = true := by decide +kernel

/-- risk-bin/src/test/java/com/finproto/risk/bin/messages/ExecutionReportTest.java:11 -/
example : roundTrip (
    let original := fresh .risk_ExecutionReport
    let original := original.setter "UniqueOrderId" (.str (js "example"))
    let original := original.setter "ClOrdId" (.str (js "example"))
    let original := original.setter "OrdCnfmId" (.str (js "example"))
    let original := original.setter "LastPx" (.num ⟨.i64, 8⟩)
    let original := original.setter "LastQty" (.num ⟨.i64, 8⟩)
    let original := original.setter "OrdStatus" (.str (js "1"))
    original) = true := by decide +kernel

/-- risk-bin/src/test/java/com/finproto/risk/bin/messages/NewOrderTest.java:11 -/
example : roundTrip (
    let original := fresh .risk_NewOrder
    let original := original.setter "UniqueOrderId" (.str (js "example"))
    let original := original.setter "ClOrdId" (.str (js "example"))
    let original := original.setter "SecurityId" (.str (js "example"))
    let original := original.setter "Side" (.str (js "1"))
    let original := original.setter "Price" (.num ⟨.i64, 8⟩)
    let original := original.setter "OrderQty" (.num ⟨.i64, 8⟩)
    let original := original.setter "OrdType" (.str (js "1"))
    let original := original.setter "Account" (.str (js "example"))
    original) = true := by decide +kernel

/-- risk-bin/src/test/java/com/finproto/risk/bin/messages/OrderCancelTest.java:11 -/
example : roundTrip (
    let original := fresh .risk_OrderCancel
    let original := original.setter "UniqueOrderId" (.str (js "example"))
    let original := original.setter "UniqueOrigOrderId" (.str (js "example"))
    let original := original.setter "ClOrdId" (.str (js "example"))
    let original := original.setter "OrigClOrdId" (.str (js "example"))
    let original := original.setter "SecurityId" (.str (js "example"))
    original) = true := by decide +kernel

/-- risk-bin/src/test/java/com/finproto/risk/bin/messages/OrderConfirmTest.java:11 -/
example : roundTrip (
    let original := fresh .risk_OrderConfirm
    let original := original.setter "UniqueOrderId" (.str (js "example"))
    let original := original.setter "UniqueOrigOrderId" (.str (js "example"))
    let original := original.setter "ClOrdId" (.str (js "example"))
    let original := original.setter "ExecType" (.str (js "1"))
    let original := original.setter "OrdRejReason" (.num ⟨.i32, 4⟩)
    let original := original.setter "OrdCnfmId" (.str (js "example"))
    original) = true := by decide +kernel

/-- risk-bin/src/test/java/com/finproto/risk/bin/messages/RcBinaryTest.java:11 -/
example : roundTrip (
    let original := fresh .risk_RcBinary
    let original := original.setter "Version" (.num ⟨.i32, 4⟩)
    let original := original.setter "MsgType" (.num ⟨.i32, 100101⟩)
    let newOrder := fresh .risk_NewOrder
    let newOrder := newOrder.setter "UniqueOrderId" (.str (js "example"))
    let newOrder := newOrder.setter "ClOrdId" (.str (js "example"))
    let newOrder := newOrder.setter "SecurityId" (.str (js "example"))
    let newOrder := newOrder.setter "Side" (.str (js "1"))
    let newOrder := newOrder.setter "Price" (.num ⟨.i64, 8⟩)
    let newOrder := newOrder.setter "OrderQty" (.num ⟨.i64, 8⟩)
    let newOrder := newOrder.setter "OrdType" (.str (js "1"))
    let newOrder := newOrder.setter "Account" (.str (js "example"))
    let original := original.setter "Body" (newOrder)
    original) = true := by decide +kernel

end FinProto.Tests.Risk
