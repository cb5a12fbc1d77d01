import Verif.Spec.LayoutTypes
/- GENERATED by tools/gen.py from the unit tests in /repo/*/src/test; do not edit. -/
namespace FinProto.Layout

/-- szse-bin/src/test/java/com/finproto/szse/bin/messages/BusinessRejectTest.java:11 -/
def szse_BusinessReject : List (String × WTy) := [("applId", .text 3 0x20 false),
  ("transactTime", .num .i64),
  ("submittingPbuid", .text 6 0x20 false),
  ("securityId", .text 8 0x20 false),
  ("securityIdsource", .text 4 0x20 false),
  ("refSeqNum", .num .i64),
  ("refMsgType", .num .i32),
  ("businessRejectRefId", .text 10 0x20 false),
  ("businessRejectReason", .num .i16),
  ("businessRejectText", .text 50 0x20 false)]

/-- szse-bin/src/test/java/com/finproto/szse/bin/messages/CancelRejectTest.java:11 -/
def szse_CancelReject : List (String × WTy) := [("partitionNo", .num .i32),
  ("reportIndex", .num .i64),
  ("applId", .text 3 0x20 false),
  ("reportingPbuid", .text 6 0x20 false),
  ("submittingPbuid", .text 6 0x20 false),
  ("securityId", .text 8 0x20 false),
  ("securityIdsource", .text 4 0x20 false),
  ("ownerType", .num .i16),
  ("clearingFirm", .text 2 0x20 false),
  ("transactTime", .num .i64),
  ("userInfo", .text 8 0x20 false),
  ("clOrdId", .text 10 0x20 false),
  ("origClOrdId", .text 10 0x20 false),
  ("side", .text 1 0x20 false),
  ("ordStatus", .text 1 0x20 false),
  ("cxlRejReason", .num .i16),
  ("rejectText", .text 16 0x20 false),
  ("orderId", .text 16 0x20 false)]

/-- szse-bin/src/test/java/com/finproto/szse/bin/messages/ExecutionConfirmTest.java:11 -/
def szse_ExecutionConfirm : List (String × WTy) := [("partitionNo", .num .i32),
  ("reportIndex", .num .i64),
  ("applId", .text 3 0x20 false),
  ("reportingPbuid", .text 6 0x20 false),
  ("submittingPbuid", .text 6 0x20 false),
  ("securityId", .text 8 0x20 false),
  ("securityIdsource", .text 4 0x20 false),
  ("ownerType", .num .i16),
  ("clearingFirm", .text 2 0x20 false),
  ("transactTime", .num .i64),
  ("userInfo", .text 8 0x20 false),
  ("orderId", .text 16 0x20 false),
  ("clOrdId", .text 10 0x20 false),
  ("quoteMsgId", .text 10 0x20 false),
  ("origClOrdId", .text 10 0x20 false),
  ("execId", .text 16 0x20 false),
  ("execType", .text 1 0x20 false),
  ("ordStatus", .text 1 0x20 false),
  ("ordRejReason", .num .i16),
  ("leavesQty", .num .i64),
  ("cumQty", .num .i64),
  ("side", .text 1 0x20 false),
  ("ordType", .text 1 0x20 false),
  ("orderQty", .num .i64),
  ("price", .num .i64),
  ("accountId", .text 12 0x20 false),
  ("branchId", .text 4 0x20 false),
  ("orderRestrictions", .text 4 0x20 false),
  ("applExtend", .ext .szse_ExecutionConfirm 2)]

/-- szse-bin/src/test/java/com/finproto/szse/bin/messages/ExecutionReportTest.java:11 -/
def szse_ExecutionReport : List (String × WTy) := [("partitionNo", .num .i32),
  ("reportIndex", .num .i64),
  ("applId", .text 3 0x20 false),
  ("reportingPbuid", .text 6 0x20 false),
  ("submittingPbuid", .text 6 0x20 false),
  ("securityId", .text 8 0x20 false),
  ("securityIdsource", .text 4 0x20 false),
  ("ownerType", .num .i16),
  ("clearingFirm", .text 2 0x20 false),
  ("transactTime", .num .i64),
  ("userInfo", .text 8 0x20 false),
  ("orderId", .text 16 0x20 false),
  ("clOrdId", .text 10 0x20 false),
  ("quoteMsgId", .text 10 0x20 false),
  ("execId", .text 16 0x20 false),
  ("execType", .text 1 0x20 false),
  ("ordStatus", .text 1 0x20 false),
  ("lastPx", .num .i64),
  ("lastQty", .num .i64),
  ("leavesQty", .num .i64),
  ("cumQty", .num .i64),
  ("side", .text 1 0x20 false),
  ("accountId", .text 12 0x20 false),
  ("branchId", .text 4 0x20 false),
  ("applExtend", .ext .szse_ExecutionReport 2)]

/-- szse-bin/src/test/java/com/finproto/szse/bin/messages/Extend100101Test.java:11 -/
def szse_Extend100101 : List (String × WTy) := [("stopPx", .num .i64),
  ("minQty", .num .i64),
  ("maxPriceLevels", .num .i16),
  ("timeInForce", .text 1 0x20 false),
  ("cashMargin", .text 1 0x20 false)]

/-- szse-bin/src/test/java/com/finproto/szse/bin/messages/Extend100201Test.java:11 -/
def szse_Extend100201 : List (String × WTy) := [("stopPx", .num .i64),
  ("minQty", .num .i64),
  ("maxPriceLevels", .num .i16),
  ("timeInForce", .text 1 0x20 false)]

/-- szse-bin/src/test/java/com/finproto/szse/bin/messages/Extend100301Test.java:11 -/
def szse_Extend100301 : List (String × WTy) := [("stopPx", .num .i64),
  ("minQty", .num .i64),
  ("maxPriceLevels", .num .i16),
  ("timeInForce", .text 1 0x20 false)]

/-- szse-bin/src/test/java/com/finproto/szse/bin/messages/Extend100501Test.java:11 -/
def szse_Extend100501 : List (String × WTy) := [("confirmId", .text 8 0x20 false),
  ("cashMargin", .text 1 0x20 false)]

/-- szse-bin/src/test/java/com/finproto/szse/bin/messages/Extend100601Test.java:11 -/
def szse_Extend100601 : List (String × WTy) := [("cashMargin", .text 1 0x20 false)]

/-- szse-bin/src/test/java/com/finproto/szse/bin/messages/Extend100701Test.java:11 -/
def szse_Extend100701 : List (String × WTy) := [("expirationDays", .num .i16),
  ("expirationType", .num .i8),
  ("shareProperty", .text 2 0x20 false)]

/-- szse-bin/src/test/java/com/finproto/szse/bin/messages/Extend101401Test.java:11 -/
def szse_Extend101401 : List (String × WTy) := [("stopPx", .num .i64),
  ("minQty", .num .i64),
  ("maxPriceLevels", .num .i16),
  ("timeInForce", .text 1 0x20 false),
  ("positionEffect", .text 1 0x20 false),
  ("coveredOrUncovered", .num .i8),
  ("contractAccountCode", .text 6 0x20 false),
  ("secondaryOrderId", .text 16 0x20 false)]

/-- szse-bin/src/test/java/com/finproto/szse/bin/messages/Extend101501Test.java:11 -/
def szse_Extend101501 : List (String × WTy) := [("shareProperty", .text 2 0x20 false)]

/-- szse-bin/src/test/java/com/finproto/szse/bin/messages/Extend101601Test.java:11 -/
def szse_Extend101601 : List (String × WTy) := [("contractAccountCode", .text 6 0x20 false)]

/-- szse-bin/src/test/java/com/finproto/szse/bin/messages/Extend101701Test.java:11 -/
def szse_Extend101701 : List (String × WTy) := [("cashOrderQty", .num .i64)]

/-- szse-bin/src/test/java/com/finproto/szse/bin/messages/Extend101801Test.java:11 -/
def szse_Extend101801 : List (String × WTy) := [("tenderer", .text 6 0x20 false)]

/-- szse-bin/src/test/java/com/finproto/szse/bin/messages/Extend102701Test.java:11 -/
def szse_Extend102701 : List (String × WTy) := [("disposalPbu", .text 6 0x20 false),
  ("disposalAccountId", .text 12 0x20 false)]

/-- szse-bin/src/test/java/com/finproto/szse/bin/messages/Extend102801Test.java:11 -/
def szse_Extend102801 : List (String × WTy) := [("lenderPbu", .text 6 0x20 false),
  ("lenderAccountId", .text 12 0x20 false)]

/-- szse-bin/src/test/java/com/finproto/szse/bin/messages/Extend102901Test.java:11 -/
def szse_Extend102901 : List (String × WTy) := [("deductionPbu", .text 6 0x20 false),
  ("deductionAccountId", .text 12 0x20 false)]

/-- szse-bin/src/test/java/com/finproto/szse/bin/messages/Extend103501Test.java:11 -/
def szse_Extend103501 : List (String × WTy) := [("contractAccountCode", .text 6 0x20 false)]

/-- szse-bin/src/test/java/com/finproto/szse/bin/messages/Extend103701Test.java:11 -/
def szse_Extend103701 : List (String × WTy) := [("cashMargin", .text 1 0x20 false)]

/-- szse-bin/src/test/java/com/finproto/szse/bin/messages/Extend104101Test.java:11 -/
def szse_Extend104101 : List (String × WTy) := [("stopPx", .num .i64),
  ("minQty", .num .i64),
  ("maxPriceLevels", .num .i16),
  ("timeInForce", .text 1 0x20 false),
  ("cashMargin", .text 1 0x20 false)]

/-- szse-bin/src/test/java/com/finproto/szse/bin/messages/Extend104128Test.java:11 -/
def szse_Extend104128 : List (String × WTy) := [("memberId", .text 6 0x20 false),
  ("investorType", .text 2 0x20 false),
  ("investorId", .text 10 0x20 false),
  ("investorName", .text 120 0x20 false),
  ("traderCode", .text 8 0x20 false),
  ("secondaryOrderId", .text 16 0x20 false),
  ("bidTransType", .num .i16),
  ("bidExecInstType", .num .i16),
  ("lowLimitPrice", .num .i64),
  ("highLimitPrice", .num .i64),
  ("minQty", .num .i64),
  ("tradeDate", .num .i32),
  ("settlType", .num .i16),
  ("settlPeriod", .num .i8),
  ("preTradeAnonymity", .num .i8),
  ("cashMargin", .text 1 0x20 false),
  ("memo", .text 160 0x20 false)]

/-- szse-bin/src/test/java/com/finproto/szse/bin/messages/Extend104701Test.java:11 -/
def szse_Extend104701 : List (String × WTy) := [("secondaryOrderId", .text 16 0x20 false)]

/-- szse-bin/src/test/java/com/finproto/szse/bin/messages/Extend106301Test.java:11 -/
def szse_Extend106301 : List (String × WTy) := [("stopPx", .num .i64),
  ("minQty", .num .i64),
  ("maxPriceLevels", .num .i16),
  ("timeInForce", .text 1 0x20 false),
  ("lotType", .text 1 0x20 false)]

/-- szse-bin/src/test/java/com/finproto/szse/bin/messages/Extend200102Test.java:11 -/
def szse_Extend200102 : List (String × WTy) := [("stopPx", .num .i64),
  ("minQty", .num .i64),
  ("maxPriceLevels", .num .i16),
  ("timeInForce", .text 1 0x20 false),
  ("cashMargin", .text 1 0x20 false)]

/-- szse-bin/src/test/java/com/finproto/szse/bin/messages/Extend200115Test.java:11 -/
def szse_Extend200115 : List (String × WTy) := [("cashMargin", .text 1 0x20 false)]

/-- szse-bin/src/test/java/com/finproto/szse/bin/messages/Extend200202Test.java:11 -/
def szse_Extend200202 : List (String × WTy) := [("stopPx", .num .i64),
  ("minQty", .num .i64),
  ("maxPriceLevels", .num .i16),
  ("timeInForce", .text 1 0x20 false)]

/-- szse-bin/src/test/java/com/finproto/szse/bin/messages/Extend200215Test.java:11 -/
def szse_Extend200215 : List (String × WTy) := [("maturityDate", .num .i32)]

/-- szse-bin/src/test/java/com/finproto/szse/bin/messages/Extend200302Test.java:11 -/
def szse_Extend200302 : List (String × WTy) := [("stopPx", .num .i64),
  ("minQty", .num .i64),
  ("maxPriceLevels", .num .i16),
  ("timeInForce", .text 1 0x20 false)]

/-- szse-bin/src/test/java/com/finproto/szse/bin/messages/Extend200315Test.java:11 -/
def szse_Extend200315 : List (String × WTy) := [("maturityDate", .num .i32)]

/-- szse-bin/src/test/java/com/finproto/szse/bin/messages/Extend200402Test.java:11 -/
def szse_Extend200402 : List (String × WTy) := [("stopPx", .num .i64),
  ("minQty", .num .i64),
  ("maxPriceLevels", .num .i16),
  ("timeInForce", .text 1 0x20 false),
  ("positionEffect", .text 1 0x20 false),
  ("coveredOrUncovered", .num .i8),
  ("contractAccountCode", .text 6 0x20 false),
  ("secondaryOrderId", .text 16 0x20 false)]

/-- szse-bin/src/test/java/com/finproto/szse/bin/messages/Extend200415Test.java:11 -/
def szse_Extend200415 : List (String × WTy) := [("positionEffect", .text 1 0x20 false),
  ("coveredOrUncovered", .num .i8),
  ("contractAccountCode", .text 6 0x20 false),
  ("secondaryOrderId", .text 16 0x20 false)]

/-- szse-bin/src/test/java/com/finproto/szse/bin/messages/Extend200502Test.java:11 -/
def szse_Extend200502 : List (String × WTy) := [("confirmId", .text 8 0x20 false),
  ("cashMargin", .text 1 0x20 false)]

/-- szse-bin/src/test/java/com/finproto/szse/bin/messages/Extend200515Test.java:11 -/
def szse_Extend200515 : List (String × WTy) := [("confirmId", .text 8 0x20 false),
  ("cashMargin", .text 1 0x20 false)]

/-- szse-bin/src/test/java/com/finproto/szse/bin/messages/Extend200602Test.java:11 -/
def szse_Extend200602 : List (String × WTy) := [("cashMargin", .text 1 0x20 false)]

/-- szse-bin/src/test/java/com/finproto/szse/bin/messages/Extend200615Test.java:11 -/
def szse_Extend200615 : List (String × WTy) := [("cashMargin", .text 1 0x20 false)]

/-- szse-bin/src/test/java/com/finproto/szse/bin/messages/Extend200702Test.java:11 -/
def szse_Extend200702 : List (String × WTy) := [("expirationDays", .num .i16),
  ("expirationType", .num .i8),
  ("shareProperty", .text 2 0x20 false)]

/-- szse-bin/src/test/java/com/finproto/szse/bin/messages/Extend200715Test.java:11 -/
def szse_Extend200715 : List (String × WTy) := [("expirationDays", .num .i16),
  ("expirationType", .num .i8),
  ("maturityDate", .num .i32),
  ("shareProperty", .text 2 0x20 false)]

/-- szse-bin/src/test/java/com/finproto/szse/bin/messages/Extend201202Test.java:11 -/
def szse_Extend201202 : List (String × WTy) := [("insufficientSecurityId", .text 8 0x20 false),
  ("noSecurity", .num .i32),
  ("underlyingSecurityId", .text 8 0x20 false),
  ("underlyingSecurityIdsource", .text 4 0x20 false),
  ("deliveryQty", .num .i64),
  ("substCash", .num .i64)]

/-- szse-bin/src/test/java/com/finproto/szse/bin/messages/Extend201502Test.java:11 -/
def szse_Extend201502 : List (String × WTy) := [("shareProperty", .text 2 0x20 false)]

/-- szse-bin/src/test/java/com/finproto/szse/bin/messages/Extend201602Test.java:11 -/
def szse_Extend201602 : List (String × WTy) := [("contractAccountCode", .text 6 0x20 false)]

/-- szse-bin/src/test/java/com/finproto/szse/bin/messages/Extend201702Test.java:11 -/
def szse_Extend201702 : List (String × WTy) := [("cashOrderQty", .num .i64)]

/-- szse-bin/src/test/java/com/finproto/szse/bin/messages/Extend201802Test.java:11 -/
def szse_Extend201802 : List (String × WTy) := [("tenderer", .text 6 0x20 false)]

/-- szse-bin/src/test/java/com/finproto/szse/bin/messages/Extend202702Test.java:11 -/
def szse_Extend202702 : List (String × WTy) := [("disposalPbu", .text 6 0x20 false),
  ("disposalAccountId", .text 12 0x20 false)]

/-- szse-bin/src/test/java/com/finproto/szse/bin/messages/Extend202802Test.java:11 -/
def szse_Extend202802 : List (String × WTy) := [("lenderPbu", .text 6 0x20 false),
  ("lenderAccountId", .text 12 0x20 false)]

/-- szse-bin/src/test/java/com/finproto/szse/bin/messages/Extend202902Test.java:11 -/
def szse_Extend202902 : List (String × WTy) := [("deductionPbu", .text 6 0x20 false),
  ("deductionAccountId", .text 12 0x20 false)]

/-- szse-bin/src/test/java/com/finproto/szse/bin/messages/Extend203102Test.java:11 -/
def szse_Extend203102 : List (String × WTy) := [("insufficientSecurityId", .text 8 0x20 false),
  ("noSecurity", .num .i32),
  ("underlyingSecurityId", .text 8 0x20 false),
  ("underlyingSecurityIdsource", .text 4 0x20 false),
  ("deliveryQty", .num .i64)]

/-- szse-bin/src/test/java/com/finproto/szse/bin/messages/Extend203502Test.java:11 -/
def szse_Extend203502 : List (String × WTy) := [("contractAccountCode", .text 6 0x20 false)]

/-- szse-bin/src/test/java/com/finproto/szse/bin/messages/Extend203702Test.java:11 -/
def szse_Extend203702 : List (String × WTy) := [("cashMargin", .text 1 0x20 false)]

/-- szse-bin/src/test/java/com/finproto/szse/bin/messages/Extend203715Test.java:11 -/
def szse_Extend203715 : List (String × WTy) := [("cashMargin", .text 1 0x20 false)]

/-- szse-bin/src/test/java/com/finproto/szse/bin/messages/Extend204102Test.java:11 -/
def szse_Extend204102 : List (String × WTy) := [("stopPx", .num .i64),
  ("minQty", .num .i64),
  ("maxPriceLevels", .num .i16),
  ("timeInForce", .text 1 0x20 false),
  ("cashMargin", .text 1 0x20 false)]

/-- szse-bin/src/test/java/com/finproto/szse/bin/messages/Extend204115Test.java:11 -/
def szse_Extend204115 : List (String × WTy) := [("cashMargin", .text 1 0x20 false),
  ("settlType", .num .i16),
  ("settlPeriod", .num .i8),
  ("counterpartyMemberId", .text 6 0x20 false),
  ("counterpartyInvestorType", .text 2 0x20 false),
  ("counterpartyInvestorId", .text 10 0x20 false),
  ("counterpartyInvestorName", .text 120 0x20 false),
  ("counterpartyTraderCode", .text 8 0x20 false)]

/-- szse-bin/src/test/java/com/finproto/szse/bin/messages/Extend204129Test.java:11 -/
def szse_Extend204129 : List (String × WTy) := [("memberId", .text 6 0x20 false),
  ("investorType", .text 2 0x20 false),
  ("investorId", .text 10 0x20 false),
  ("investorName", .text 120 0x20 false),
  ("traderCode", .text 8 0x20 false),
  ("secondaryOrderId", .text 16 0x20 false),
  ("bidTransType", .num .i16),
  ("bidExecInstType", .num .i16),
  ("lowLimitPrice", .num .i64),
  ("highLimitPrice", .num .i64),
  ("minQty", .num .i64),
  ("tradeDate", .num .i32),
  ("settlType", .num .i16),
  ("settlPeriod", .num .i8),
  ("preTradeAnonymity", .num .i8),
  ("cashMargin", .text 1 0x20 false),
  ("memo", .text 160 0x20 false)]

/-- szse-bin/src/test/java/com/finproto/szse/bin/messages/Extend204130Test.java:11 -/
def szse_Extend204130 : List (String × WTy) := [("memberId", .text 6 0x20 false),
  ("investorType", .text 2 0x20 false),
  ("investorId", .text 10 0x20 false),
  ("investorName", .text 120 0x20 false),
  ("traderCode", .text 8 0x20 false),
  ("counterpartyMemberId", .text 6 0x20 false),
  ("counterpartyInvestorType", .text 2 0x20 false),
  ("counterpartyInvestorId", .text 10 0x20 false),
  ("counterpartyInvestorName", .text 120 0x20 false),
  ("counterpartyTraderCode", .text 8 0x20 false),
  ("secondaryOrderId", .text 16 0x20 false),
  ("bidTransType", .num .i16),
  ("bidExecInstType", .num .i16),
  ("settlType", .num .i16),
  ("settlPeriod", .num .i8),
  ("cashMargin", .text 1 0x20 false),
  ("memo", .text 160 0x20 false)]

/-- szse-bin/src/test/java/com/finproto/szse/bin/messages/Extend204702Test.java:11 -/
def szse_Extend204702 : List (String × WTy) := [("secondaryOrderId", .text 16 0x20 false)]

/-- szse-bin/src/test/java/com/finproto/szse/bin/messages/Extend204715Test.java:11 -/
def szse_Extend204715 : List (String × WTy) := [("expirationDays", .num .i16),
  ("expirationType", .num .i8),
  ("maturityDate", .num .i32),
  ("shareProperty", .text 2 0x20 false)]

/-- szse-bin/src/test/java/com/finproto/szse/bin/messages/Extend206302Test.java:11 -/
def szse_Extend206302 : List (String × WTy) := [("rejectText", .text 16 0x20 false),
  ("stopPx", .num .i64),
  ("minQty", .num .i64),
  ("maxPriceLevels", .num .i16),
  ("timeInForce", .text 1 0x20 false),
  ("lotType", .text 1 0x20 false),
  ("imcrejectTextLen", .num .i32),
  ("imcrejectText", .vstr)]

/-- szse-bin/src/test/java/com/finproto/szse/bin/messages/Extend206315Test.java:11 -/
def szse_Extend206315 : List (String × WTy) := [("cashMargin", .text 1 0x20 false)]

/-- szse-bin/src/test/java/com/finproto/szse/bin/messages/HeartbeatTest.java:11 -/
def szse_Heartbeat : List (String × WTy) := []

/-- szse-bin/src/test/java/com/finproto/szse/bin/messages/LogonTest.java:11 -/
def szse_Logon : List (String × WTy) := [("senderCompId", .text 20 0x20 false),
  ("targetCompId", .text 20 0x20 false),
  ("heartBtint", .num .i32),
  ("password", .text 16 0x20 false),
  ("defaultApplVerId", .text 32 0x20 false)]

/-- szse-bin/src/test/java/com/finproto/szse/bin/messages/LogoutTest.java:11 -/
def szse_Logout : List (String × WTy) := [("sessionStatus", .num .i32),
  ("text", .text 200 0x20 false)]

/-- szse-bin/src/test/java/com/finproto/szse/bin/messages/NewOrderTest.java:11 -/
def szse_NewOrder : List (String × WTy) := [("applId", .text 3 0x20 false),
  ("submittingPbuid", .text 6 0x20 false),
  ("securityId", .text 8 0x20 false),
  ("securityIdsource", .text 4 0x20 false),
  ("ownerType", .num .i16),
  ("clearingFirm", .text 2 0x20 false),
  ("transactTime", .num .i64),
  ("userInfo", .text 8 0x20 false),
  ("clOrdId", .text 10 0x20 false),
  ("accountId", .text 12 0x20 false),
  ("branchId", .text 4 0x20 false),
  ("orderRestrictions", .text 4 0x20 false),
  ("side", .text 1 0x20 false),
  ("ordType", .text 1 0x20 false),
  ("orderQty", .num .i64),
  ("price", .num .i64),
  ("applExtend", .ext .szse_NewOrder 0)]

/-- szse-bin/src/test/java/com/finproto/szse/bin/messages/OrderCancelRequestTest.java:11 -/
def szse_OrderCancelRequest : List (String × WTy) := [("applId", .text 3 0x20 false),
  ("submittingPbuid", .text 6 0x20 false),
  ("securityId", .text 8 0x20 false),
  ("securityIdsource", .text 4 0x20 false),
  ("ownerType", .num .i16),
  ("clearingFirm", .text 2 0x20 false),
  ("transactTime", .num .i64),
  ("userInfo", .text 8 0x20 false),
  ("clOrdId", .text 10 0x20 false),
  ("origClOrdId", .text 10 0x20 false),
  ("side", .text 1 0x20 false),
  ("orderId", .text 16 0x20 false),
  ("orderQty", .num .i64)]

/-- szse-bin/src/test/java/com/finproto/szse/bin/messages/PartitionReportTest.java:11 -/
def szse_PartitionReport : List (String × WTy) := [("partitionNo", .num .i32),
  ("reportIndex", .num .i64)]

/-- szse-bin/src/test/java/com/finproto/szse/bin/messages/PlatformInfoTest.java:12 -/
def szse_PlatformInfo : List (String × WTy) := [("platformId", .num .i16),
  ("platformPartition", .list (.sub .szse_PlatformPartition))]

/-- szse-bin/src/test/java/com/finproto/szse/bin/messages/PlatformPartitionTest.java:11 -/
def szse_PlatformPartition : List (String × WTy) := [("partitionNo", .num .i32)]

/-- szse-bin/src/test/java/com/finproto/szse/bin/messages/PlatformStateInfoTest.java:11 -/
def szse_PlatformStateInfo : List (String × WTy) := [("platformId", .num .i16),
  ("platformState", .num .i16)]

/-- szse-bin/src/test/java/com/finproto/szse/bin/messages/ReportFinishedTest.java:11 -/
def szse_ReportFinished : List (String × WTy) := [("partitionNo", .num .i32),
  ("reportIndex", .num .i64),
  ("platformId", .num .i16)]

/-- szse-bin/src/test/java/com/finproto/szse/bin/messages/ReportSynchronizationTest.java:12 -/
def szse_ReportSynchronization : List (String × WTy) := [("partitionReport", .list (.sub .szse_PartitionReport))]

/-- szse-bin/src/test/java/com/finproto/szse/bin/messages/TradingSessionStatusTest.java:11 -/
def szse_TradingSessionStatus : List (String × WTy) := [("marketId", .text 8 0x20 false),
  ("marketSegmentId", .text 8 0x20 false),
  ("tradingSessionId", .text 4 0x20 false),
  ("tradingSessionSubId", .text 4 0x20 false),
  ("tradSesStatus", .num .i16),
  ("tradSesStartTime", .num .i64),
  ("tradSesEndTime", .num .i64)]

end FinProto.Layout
