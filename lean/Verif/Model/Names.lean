/- GENERATED by tools/gen.py from the Java sources in /repo; do not edit. -/

namespace FinProto

/-- The message classes (one constructor per Java class; nested classes as Outer_Inner);
file and line stand beside each. -/
inductive Cls
  | sample_BasicPacket  -- sample-bin/src/main/java/com/finproto/sample/messages/BasicPacket.java:10
  | sample_EmptyPacket  -- sample-bin/src/main/java/com/finproto/sample/messages/EmptyPacket.java:7
  | sample_NestedPacket  -- sample-bin/src/main/java/com/finproto/sample/messages/NestedPacket.java:10
  | sample_NestedPacket_InerPacket  -- sample-bin/src/main/java/com/finproto/sample/messages/NestedPacket.java:106
  | sample_RootPacket  -- sample-bin/src/main/java/com/finproto/sample/messages/RootPacket.java:13
  | sample_StringPacket  -- sample-bin/src/main/java/com/finproto/sample/messages/StringPacket.java:12
  | sample_SubPacket  -- sample-bin/src/main/java/com/finproto/sample/messages/SubPacket.java:10
  | sse_CancelReject  -- sse-bin/src/main/java/com/finproto/sse/bin/messages/CancelReject.java:8
  | sse_Confirm  -- sse-bin/src/main/java/com/finproto/sse/bin/messages/Confirm.java:8
  | sse_ExecRptEndOfStream  -- sse-bin/src/main/java/com/finproto/sse/bin/messages/ExecRptEndOfStream.java:8
  | sse_ExecRptInfo  -- sse-bin/src/main/java/com/finproto/sse/bin/messages/ExecRptInfo.java:10
  | sse_ExecRptSync  -- sse-bin/src/main/java/com/finproto/sse/bin/messages/ExecRptSync.java:10
  | sse_ExecRptSync_SubExecRptSync  -- sse-bin/src/main/java/com/finproto/sse/bin/messages/ExecRptSync.java:69
  | sse_ExecRptSyncRsp  -- sse-bin/src/main/java/com/finproto/sse/bin/messages/ExecRptSyncRsp.java:10
  | sse_ExecRptSyncRsp_SubExecRptSyncRsp  -- sse-bin/src/main/java/com/finproto/sse/bin/messages/ExecRptSyncRsp.java:69
  | sse_Heartbeat  -- sse-bin/src/main/java/com/finproto/sse/bin/messages/Heartbeat.java:7
  | sse_Logon  -- sse-bin/src/main/java/com/finproto/sse/bin/messages/Logon.java:8
  | sse_Logout  -- sse-bin/src/main/java/com/finproto/sse/bin/messages/Logout.java:8
  | sse_NewOrderSingle  -- sse-bin/src/main/java/com/finproto/sse/bin/messages/NewOrderSingle.java:8
  | sse_OrderCancel  -- sse-bin/src/main/java/com/finproto/sse/bin/messages/OrderCancel.java:8
  | sse_OrderReject  -- sse-bin/src/main/java/com/finproto/sse/bin/messages/OrderReject.java:8
  | sse_PlatformState  -- sse-bin/src/main/java/com/finproto/sse/bin/messages/PlatformState.java:8
  | sse_Report  -- sse-bin/src/main/java/com/finproto/sse/bin/messages/Report.java:8
  | sse_SseBinary  -- sse-bin/src/main/java/com/finproto/sse/bin/messages/SseBinary.java:13
  | szse_BusinessReject  -- szse-bin/src/main/java/com/finproto/szse/bin/messages/BusinessReject.java:8
  | szse_CancelReject  -- szse-bin/src/main/java/com/finproto/szse/bin/messages/CancelReject.java:8
  | szse_ExecutionConfirm  -- szse-bin/src/main/java/com/finproto/szse/bin/messages/ExecutionConfirm.java:11
  | szse_ExecutionReport  -- szse-bin/src/main/java/com/finproto/szse/bin/messages/ExecutionReport.java:11
  | szse_Extend100101  -- szse-bin/src/main/java/com/finproto/szse/bin/messages/Extend100101.java:8
  | szse_Extend100201  -- szse-bin/src/main/java/com/finproto/szse/bin/messages/Extend100201.java:8
  | szse_Extend100301  -- szse-bin/src/main/java/com/finproto/szse/bin/messages/Extend100301.java:8
  | szse_Extend100501  -- szse-bin/src/main/java/com/finproto/szse/bin/messages/Extend100501.java:8
  | szse_Extend100601  -- szse-bin/src/main/java/com/finproto/szse/bin/messages/Extend100601.java:8
  | szse_Extend100701  -- szse-bin/src/main/java/com/finproto/szse/bin/messages/Extend100701.java:8
  | szse_Extend101401  -- szse-bin/src/main/java/com/finproto/szse/bin/messages/Extend101401.java:8
  | szse_Extend101501  -- szse-bin/src/main/java/com/finproto/szse/bin/messages/Extend101501.java:8
  | szse_Extend101601  -- szse-bin/src/main/java/com/finproto/szse/bin/messages/Extend101601.java:8
  | szse_Extend101701  -- szse-bin/src/main/java/com/finproto/szse/bin/messages/Extend101701.java:8
  | szse_Extend101801  -- szse-bin/src/main/java/com/finproto/szse/bin/messages/Extend101801.java:8
  | szse_Extend102701  -- szse-bin/src/main/java/com/finproto/szse/bin/messages/Extend102701.java:8
  | szse_Extend102801  -- szse-bin/src/main/java/com/finproto/szse/bin/messages/Extend102801.java:8
  | szse_Extend102901  -- szse-bin/src/main/java/com/finproto/szse/bin/messages/Extend102901.java:8
  | szse_Extend103501  -- szse-bin/src/main/java/com/finproto/szse/bin/messages/Extend103501.java:8
  | szse_Extend103701  -- szse-bin/src/main/java/com/finproto/szse/bin/messages/Extend103701.java:8
  | szse_Extend104101  -- szse-bin/src/main/java/com/finproto/szse/bin/messages/Extend104101.java:8
  | szse_Extend104128  -- szse-bin/src/main/java/com/finproto/szse/bin/messages/Extend104128.java:8
  | szse_Extend104701  -- szse-bin/src/main/java/com/finproto/szse/bin/messages/Extend104701.java:8
  | szse_Extend106301  -- szse-bin/src/main/java/com/finproto/szse/bin/messages/Extend106301.java:8
  | szse_Extend200102  -- szse-bin/src/main/java/com/finproto/szse/bin/messages/Extend200102.java:8
  | szse_Extend200115  -- szse-bin/src/main/java/com/finproto/szse/bin/messages/Extend200115.java:8
  | szse_Extend200202  -- szse-bin/src/main/java/com/finproto/szse/bin/messages/Extend200202.java:8
  | szse_Extend200215  -- szse-bin/src/main/java/com/finproto/szse/bin/messages/Extend200215.java:8
  | szse_Extend200302  -- szse-bin/src/main/java/com/finproto/szse/bin/messages/Extend200302.java:8
  | szse_Extend200315  -- szse-bin/src/main/java/com/finproto/szse/bin/messages/Extend200315.java:8
  | szse_Extend200402  -- szse-bin/src/main/java/com/finproto/szse/bin/messages/Extend200402.java:8
  | szse_Extend200415  -- szse-bin/src/main/java/com/finproto/szse/bin/messages/Extend200415.java:8
  | szse_Extend200502  -- szse-bin/src/main/java/com/finproto/szse/bin/messages/Extend200502.java:8
  | szse_Extend200515  -- szse-bin/src/main/java/com/finproto/szse/bin/messages/Extend200515.java:8
  | szse_Extend200602  -- szse-bin/src/main/java/com/finproto/szse/bin/messages/Extend200602.java:8
  | szse_Extend200615  -- szse-bin/src/main/java/com/finproto/szse/bin/messages/Extend200615.java:8
  | szse_Extend200702  -- szse-bin/src/main/java/com/finproto/szse/bin/messages/Extend200702.java:8
  | szse_Extend200715  -- szse-bin/src/main/java/com/finproto/szse/bin/messages/Extend200715.java:8
  | szse_Extend201202  -- szse-bin/src/main/java/com/finproto/szse/bin/messages/Extend201202.java:8
  | szse_Extend201502  -- szse-bin/src/main/java/com/finproto/szse/bin/messages/Extend201502.java:8
  | szse_Extend201602  -- szse-bin/src/main/java/com/finproto/szse/bin/messages/Extend201602.java:8
  | szse_Extend201702  -- szse-bin/src/main/java/com/finproto/szse/bin/messages/Extend201702.java:8
  | szse_Extend201802  -- szse-bin/src/main/java/com/finproto/szse/bin/messages/Extend201802.java:8
  | szse_Extend202702  -- szse-bin/src/main/java/com/finproto/szse/bin/messages/Extend202702.java:8
  | szse_Extend202802  -- szse-bin/src/main/java/com/finproto/szse/bin/messages/Extend202802.java:8
  | szse_Extend202902  -- szse-bin/src/main/java/com/finproto/szse/bin/messages/Extend202902.java:8
  | szse_Extend203102  -- szse-bin/src/main/java/com/finproto/szse/bin/messages/Extend203102.java:8
  | szse_Extend203502  -- szse-bin/src/main/java/com/finproto/szse/bin/messages/Extend203502.java:8
  | szse_Extend203702  -- szse-bin/src/main/java/com/finproto/szse/bin/messages/Extend203702.java:8
  | szse_Extend203715  -- szse-bin/src/main/java/com/finproto/szse/bin/messages/Extend203715.java:8
  | szse_Extend204102  -- szse-bin/src/main/java/com/finproto/szse/bin/messages/Extend204102.java:8
  | szse_Extend204115  -- szse-bin/src/main/java/com/finproto/szse/bin/messages/Extend204115.java:8
  | szse_Extend204129  -- szse-bin/src/main/java/com/finproto/szse/bin/messages/Extend204129.java:8
  | szse_Extend204130  -- szse-bin/src/main/java/com/finproto/szse/bin/messages/Extend204130.java:8
  | szse_Extend204702  -- szse-bin/src/main/java/com/finproto/szse/bin/messages/Extend204702.java:8
  | szse_Extend204715  -- szse-bin/src/main/java/com/finproto/szse/bin/messages/Extend204715.java:8
  | szse_Extend206302  -- szse-bin/src/main/java/com/finproto/szse/bin/messages/Extend206302.java:10
  | szse_Extend206315  -- szse-bin/src/main/java/com/finproto/szse/bin/messages/Extend206315.java:8
  | szse_Heartbeat  -- szse-bin/src/main/java/com/finproto/szse/bin/messages/Heartbeat.java:7
  | szse_Logon  -- szse-bin/src/main/java/com/finproto/szse/bin/messages/Logon.java:8
  | szse_Logout  -- szse-bin/src/main/java/com/finproto/szse/bin/messages/Logout.java:8
  | szse_NewOrder  -- szse-bin/src/main/java/com/finproto/szse/bin/messages/NewOrder.java:11
  | szse_OrderCancelRequest  -- szse-bin/src/main/java/com/finproto/szse/bin/messages/OrderCancelRequest.java:8
  | szse_PartitionReport  -- szse-bin/src/main/java/com/finproto/szse/bin/messages/PartitionReport.java:8
  | szse_PlatformInfo  -- szse-bin/src/main/java/com/finproto/szse/bin/messages/PlatformInfo.java:10
  | szse_PlatformPartition  -- szse-bin/src/main/java/com/finproto/szse/bin/messages/PlatformPartition.java:8
  | szse_PlatformStateInfo  -- szse-bin/src/main/java/com/finproto/szse/bin/messages/PlatformStateInfo.java:8
  | szse_ReportFinished  -- szse-bin/src/main/java/com/finproto/szse/bin/messages/ReportFinished.java:8
  | szse_ReportSynchronization  -- szse-bin/src/main/java/com/finproto/szse/bin/messages/ReportSynchronization.java:10
  | szse_SzseBinary  -- szse-bin/src/main/java/com/finproto/szse/bin/messages/SzseBinary.java:13
  | szse_TradingSessionStatus  -- szse-bin/src/main/java/com/finproto/szse/bin/messages/TradingSessionStatus.java:8
  | bjse_AllegeQuote  -- bjse-bin/src/main/java/com/finproto/bjse/trade/messages/AllegeQuote.java:11
  | bjse_AllegeQuoteExtend070  -- bjse-bin/src/main/java/com/finproto/bjse/trade/messages/AllegeQuoteExtend070.java:8
  | bjse_AllegeQuoteResponse  -- bjse-bin/src/main/java/com/finproto/bjse/trade/messages/AllegeQuoteResponse.java:8
  | bjse_BjseBinary  -- bjse-bin/src/main/java/com/finproto/bjse/trade/messages/BjseBinary.java:11
  | bjse_BusinessReject  -- bjse-bin/src/main/java/com/finproto/bjse/trade/messages/BusinessReject.java:8
  | bjse_CancelReject  -- bjse-bin/src/main/java/com/finproto/bjse/trade/messages/CancelReject.java:8
  | bjse_ConfirmExtend010  -- bjse-bin/src/main/java/com/finproto/bjse/trade/messages/ConfirmExtend010.java:8
  | bjse_ConfirmExtend040  -- bjse-bin/src/main/java/com/finproto/bjse/trade/messages/ConfirmExtend040.java:8
  | bjse_ConfirmExtend041  -- bjse-bin/src/main/java/com/finproto/bjse/trade/messages/ConfirmExtend041.java:7
  | bjse_ConfirmExtend042  -- bjse-bin/src/main/java/com/finproto/bjse/trade/messages/ConfirmExtend042.java:7
  | bjse_ConfirmExtend043  -- bjse-bin/src/main/java/com/finproto/bjse/trade/messages/ConfirmExtend043.java:7
  | bjse_ConfirmExtend044  -- bjse-bin/src/main/java/com/finproto/bjse/trade/messages/ConfirmExtend044.java:7
  | bjse_ConfirmExtend045  -- bjse-bin/src/main/java/com/finproto/bjse/trade/messages/ConfirmExtend045.java:7
  | bjse_ConfirmExtend050  -- bjse-bin/src/main/java/com/finproto/bjse/trade/messages/ConfirmExtend050.java:8
  | bjse_ExecutionConfirm  -- bjse-bin/src/main/java/com/finproto/bjse/trade/messages/ExecutionConfirm.java:11
  | bjse_ExecutionReport  -- bjse-bin/src/main/java/com/finproto/bjse/trade/messages/ExecutionReport.java:11
  | bjse_Extend010  -- bjse-bin/src/main/java/com/finproto/bjse/trade/messages/Extend010.java:8
  | bjse_Extend040  -- bjse-bin/src/main/java/com/finproto/bjse/trade/messages/Extend040.java:8
  | bjse_Extend041  -- bjse-bin/src/main/java/com/finproto/bjse/trade/messages/Extend041.java:7
  | bjse_Extend042  -- bjse-bin/src/main/java/com/finproto/bjse/trade/messages/Extend042.java:7
  | bjse_Extend043  -- bjse-bin/src/main/java/com/finproto/bjse/trade/messages/Extend043.java:7
  | bjse_Extend044  -- bjse-bin/src/main/java/com/finproto/bjse/trade/messages/Extend044.java:7
  | bjse_Extend045  -- bjse-bin/src/main/java/com/finproto/bjse/trade/messages/Extend045.java:7
  | bjse_Extend050  -- bjse-bin/src/main/java/com/finproto/bjse/trade/messages/Extend050.java:8
  | bjse_ExtendNewOrder010  -- bjse-bin/src/main/java/com/finproto/bjse/trade/messages/ExtendNewOrder010.java:8
  | bjse_ExtendNewOrder040  -- bjse-bin/src/main/java/com/finproto/bjse/trade/messages/ExtendNewOrder040.java:8
  | bjse_ExtendNewOrder041  -- bjse-bin/src/main/java/com/finproto/bjse/trade/messages/ExtendNewOrder041.java:7
  | bjse_ExtendNewOrder042  -- bjse-bin/src/main/java/com/finproto/bjse/trade/messages/ExtendNewOrder042.java:7
  | bjse_ExtendNewOrder043  -- bjse-bin/src/main/java/com/finproto/bjse/trade/messages/ExtendNewOrder043.java:7
  | bjse_ExtendNewOrder044  -- bjse-bin/src/main/java/com/finproto/bjse/trade/messages/ExtendNewOrder044.java:7
  | bjse_ExtendNewOrder045  -- bjse-bin/src/main/java/com/finproto/bjse/trade/messages/ExtendNewOrder045.java:7
  | bjse_ExtendNewOrder050  -- bjse-bin/src/main/java/com/finproto/bjse/trade/messages/ExtendNewOrder050.java:8
  | bjse_Heartbeat  -- bjse-bin/src/main/java/com/finproto/bjse/trade/messages/Heartbeat.java:7
  | bjse_Logon  -- bjse-bin/src/main/java/com/finproto/bjse/trade/messages/Logon.java:8
  | bjse_Logout  -- bjse-bin/src/main/java/com/finproto/bjse/trade/messages/Logout.java:8
  | bjse_NewOrder  -- bjse-bin/src/main/java/com/finproto/bjse/trade/messages/NewOrder.java:11
  | bjse_OrderCancelRequest  -- bjse-bin/src/main/java/com/finproto/bjse/trade/messages/OrderCancelRequest.java:8
  | bjse_PlatformInfo  -- bjse-bin/src/main/java/com/finproto/bjse/trade/messages/PlatformInfo.java:10
  | bjse_PlatformInfo_NoPartitions  -- bjse-bin/src/main/java/com/finproto/bjse/trade/messages/PlatformInfo.java:86
  | bjse_PlatformStateInfo  -- bjse-bin/src/main/java/com/finproto/bjse/trade/messages/PlatformStateInfo.java:8
  | bjse_Quote  -- bjse-bin/src/main/java/com/finproto/bjse/trade/messages/Quote.java:11
  | bjse_QuoteExtend070  -- bjse-bin/src/main/java/com/finproto/bjse/trade/messages/QuoteExtend070.java:8
  | bjse_QuoteExtend071  -- bjse-bin/src/main/java/com/finproto/bjse/trade/messages/QuoteExtend071.java:7
  | bjse_QuoteResponse  -- bjse-bin/src/main/java/com/finproto/bjse/trade/messages/QuoteResponse.java:13
  | bjse_QuoteResponse_Quote2  -- bjse-bin/src/main/java/com/finproto/bjse/trade/messages/QuoteResponse.java:364
  | bjse_QuoteResponseExtend070  -- bjse-bin/src/main/java/com/finproto/bjse/trade/messages/QuoteResponseExtend070.java:8
  | bjse_QuoteStatusReport  -- bjse-bin/src/main/java/com/finproto/bjse/trade/messages/QuoteStatusReport.java:11
  | bjse_QuoteStatusReportExtend070  -- bjse-bin/src/main/java/com/finproto/bjse/trade/messages/QuoteStatusReportExtend070.java:10
  | bjse_QuoteStatusReportExtend070_Quote1  -- bjse-bin/src/main/java/com/finproto/bjse/trade/messages/QuoteStatusReportExtend070.java:238
  | bjse_ReportExtend010  -- bjse-bin/src/main/java/com/finproto/bjse/trade/messages/ReportExtend010.java:8
  | bjse_ReportExtend040  -- bjse-bin/src/main/java/com/finproto/bjse/trade/messages/ReportExtend040.java:8
  | bjse_ReportExtend050  -- bjse-bin/src/main/java/com/finproto/bjse/trade/messages/ReportExtend050.java:8
  | bjse_ReportFinished  -- bjse-bin/src/main/java/com/finproto/bjse/trade/messages/ReportFinished.java:8
  | bjse_ReportSynchronization  -- bjse-bin/src/main/java/com/finproto/bjse/trade/messages/ReportSynchronization.java:10
  | bjse_ReportSynchronization_ReportPartitionSync  -- bjse-bin/src/main/java/com/finproto/bjse/trade/messages/ReportSynchronization.java:69
  | bjse_TradeCaptureCofirm  -- bjse-bin/src/main/java/com/finproto/bjse/trade/messages/TradeCaptureCofirm.java:11
  | bjse_TradeCaptureCofirmExtend031  -- bjse-bin/src/main/java/com/finproto/bjse/trade/messages/TradeCaptureCofirmExtend031.java:8
  | bjse_TradeCaptureCofirmExtend051  -- bjse-bin/src/main/java/com/finproto/bjse/trade/messages/TradeCaptureCofirmExtend051.java:8
  | bjse_TradeCaptureCofirmExtend060  -- bjse-bin/src/main/java/com/finproto/bjse/trade/messages/TradeCaptureCofirmExtend060.java:7
  | bjse_TradeCaptureCofirmExtend061  -- bjse-bin/src/main/java/com/finproto/bjse/trade/messages/TradeCaptureCofirmExtend061.java:7
  | bjse_TradeCaptureCofirmExtend062  -- bjse-bin/src/main/java/com/finproto/bjse/trade/messages/TradeCaptureCofirmExtend062.java:8
  | bjse_TradeCaptureConfirm  -- bjse-bin/src/main/java/com/finproto/bjse/trade/messages/TradeCaptureConfirm.java:11
  | bjse_TradeCaptureConfirmExtend031  -- bjse-bin/src/main/java/com/finproto/bjse/trade/messages/TradeCaptureConfirmExtend031.java:8
  | bjse_TradeCaptureConfirmExtend051  -- bjse-bin/src/main/java/com/finproto/bjse/trade/messages/TradeCaptureConfirmExtend051.java:8
  | bjse_TradeCaptureConfirmExtend060  -- bjse-bin/src/main/java/com/finproto/bjse/trade/messages/TradeCaptureConfirmExtend060.java:7
  | bjse_TradeCaptureConfirmExtend061  -- bjse-bin/src/main/java/com/finproto/bjse/trade/messages/TradeCaptureConfirmExtend061.java:7
  | bjse_TradeCaptureConfirmExtend062  -- bjse-bin/src/main/java/com/finproto/bjse/trade/messages/TradeCaptureConfirmExtend062.java:8
  | bjse_TradeCaptureReport  -- bjse-bin/src/main/java/com/finproto/bjse/trade/messages/TradeCaptureReport.java:11
  | bjse_TradeCaptureReportAck  -- bjse-bin/src/main/java/com/finproto/bjse/trade/messages/TradeCaptureReportAck.java:11
  | bjse_TradeCaptureReportAckExtend031  -- bjse-bin/src/main/java/com/finproto/bjse/trade/messages/TradeCaptureReportAckExtend031.java:8
  | bjse_TradeCaptureReportAckExtend051  -- bjse-bin/src/main/java/com/finproto/bjse/trade/messages/TradeCaptureReportAckExtend051.java:8
  | bjse_TradeCaptureReportAckExtend060  -- bjse-bin/src/main/java/com/finproto/bjse/trade/messages/TradeCaptureReportAckExtend060.java:7
  | bjse_TradeCaptureReportAckExtend061  -- bjse-bin/src/main/java/com/finproto/bjse/trade/messages/TradeCaptureReportAckExtend061.java:7
  | bjse_TradeCaptureReportAckExtend062  -- bjse-bin/src/main/java/com/finproto/bjse/trade/messages/TradeCaptureReportAckExtend062.java:8
  | bjse_TradeCaptureReportExtend031  -- bjse-bin/src/main/java/com/finproto/bjse/trade/messages/TradeCaptureReportExtend031.java:8
  | bjse_TradeCaptureReportExtend051  -- bjse-bin/src/main/java/com/finproto/bjse/trade/messages/TradeCaptureReportExtend051.java:8
  | bjse_TradeCaptureReportExtend060  -- bjse-bin/src/main/java/com/finproto/bjse/trade/messages/TradeCaptureReportExtend060.java:7
  | bjse_TradeCaptureReportExtend061  -- bjse-bin/src/main/java/com/finproto/bjse/trade/messages/TradeCaptureReportExtend061.java:7
  | bjse_TradeCaptureReportExtend062  -- bjse-bin/src/main/java/com/finproto/bjse/trade/messages/TradeCaptureReportExtend062.java:8
  | bjse_TradingSessionStatus  -- bjse-bin/src/main/java/com/finproto/bjse/trade/messages/TradingSessionStatus.java:8
  | risk_CancelReject  -- risk-bin/src/main/java/com/finproto/risk/bin/messages/CancelReject.java:10
  | risk_ExecutionReport  -- risk-bin/src/main/java/com/finproto/risk/bin/messages/ExecutionReport.java:10
  | risk_NewOrder  -- risk-bin/src/main/java/com/finproto/risk/bin/messages/NewOrder.java:10
  | risk_OrderCancel  -- risk-bin/src/main/java/com/finproto/risk/bin/messages/OrderCancel.java:10
  | risk_OrderConfirm  -- risk-bin/src/main/java/com/finproto/risk/bin/messages/OrderConfirm.java:10
  | risk_RcBinary  -- risk-bin/src/main/java/com/finproto/risk/bin/messages/RcBinary.java:11
  | risk_RiskResult  -- risk-bin/src/main/java/com/finproto/risk/bin/messages/RiskResult.java:10
  deriving DecidableEq, Repr

/-- All classes, in the order of `Cls` (file and line there). -/
def allCls : List Cls := [
  .sample_BasicPacket,
  .sample_EmptyPacket,
  .sample_NestedPacket,
  .sample_NestedPacket_InerPacket,
  .sample_RootPacket,
  .sample_StringPacket,
  .sample_SubPacket,
  .sse_CancelReject,
  .sse_Confirm,
  .sse_ExecRptEndOfStream,
  .sse_ExecRptInfo,
  .sse_ExecRptSync,
  .sse_ExecRptSync_SubExecRptSync,
  .sse_ExecRptSyncRsp,
  .sse_ExecRptSyncRsp_SubExecRptSyncRsp,
  .sse_Heartbeat,
  .sse_Logon,
  .sse_Logout,
  .sse_NewOrderSingle,
  .sse_OrderCancel,
  .sse_OrderReject,
  .sse_PlatformState,
  .sse_Report,
  .sse_SseBinary,
  .szse_BusinessReject,
  .szse_CancelReject,
  .szse_ExecutionConfirm,
  .szse_ExecutionReport,
  .szse_Extend100101,
  .szse_Extend100201,
  .szse_Extend100301,
  .szse_Extend100501,
  .szse_Extend100601,
  .szse_Extend100701,
  .szse_Extend101401,
  .szse_Extend101501,
  .szse_Extend101601,
  .szse_Extend101701,
  .szse_Extend101801,
  .szse_Extend102701,
  .szse_Extend102801,
  .szse_Extend102901,
  .szse_Extend103501,
  .szse_Extend103701,
  .szse_Extend104101,
  .szse_Extend104128,
  .szse_Extend104701,
  .szse_Extend106301,
  .szse_Extend200102,
  .szse_Extend200115,
  .szse_Extend200202,
  .szse_Extend200215,
  .szse_Extend200302,
  .szse_Extend200315,
  .szse_Extend200402,
  .szse_Extend200415,
  .szse_Extend200502,
  .szse_Extend200515,
  .szse_Extend200602,
  .szse_Extend200615,
  .szse_Extend200702,
  .szse_Extend200715,
  .szse_Extend201202,
  .szse_Extend201502,
  .szse_Extend201602,
  .szse_Extend201702,
  .szse_Extend201802,
  .szse_Extend202702,
  .szse_Extend202802,
  .szse_Extend202902,
  .szse_Extend203102,
  .szse_Extend203502,
  .szse_Extend203702,
  .szse_Extend203715,
  .szse_Extend204102,
  .szse_Extend204115,
  .szse_Extend204129,
  .szse_Extend204130,
  .szse_Extend204702,
  .szse_Extend204715,
  .szse_Extend206302,
  .szse_Extend206315,
  .szse_Heartbeat,
  .szse_Logon,
  .szse_Logout,
  .szse_NewOrder,
  .szse_OrderCancelRequest,
  .szse_PartitionReport,
  .szse_PlatformInfo,
  .szse_PlatformPartition,
  .szse_PlatformStateInfo,
  .szse_ReportFinished,
  .szse_ReportSynchronization,
  .szse_SzseBinary,
  .szse_TradingSessionStatus,
  .bjse_AllegeQuote,
  .bjse_AllegeQuoteExtend070,
  .bjse_AllegeQuoteResponse,
  .bjse_BjseBinary,
  .bjse_BusinessReject,
  .bjse_CancelReject,
  .bjse_ConfirmExtend010,
  .bjse_ConfirmExtend040,
  .bjse_ConfirmExtend041,
  .bjse_ConfirmExtend042,
  .bjse_ConfirmExtend043,
  .bjse_ConfirmExtend044,
  .bjse_ConfirmExtend045,
  .bjse_ConfirmExtend050,
  .bjse_ExecutionConfirm,
  .bjse_ExecutionReport,
  .bjse_Extend010,
  .bjse_Extend040,
  .bjse_Extend041,
  .bjse_Extend042,
  .bjse_Extend043,
  .bjse_Extend044,
  .bjse_Extend045,
  .bjse_Extend050,
  .bjse_ExtendNewOrder010,
  .bjse_ExtendNewOrder040,
  .bjse_ExtendNewOrder041,
  .bjse_ExtendNewOrder042,
  .bjse_ExtendNewOrder043,
  .bjse_ExtendNewOrder044,
  .bjse_ExtendNewOrder045,
  .bjse_ExtendNewOrder050,
  .bjse_Heartbeat,
  .bjse_Logon,
  .bjse_Logout,
  .bjse_NewOrder,
  .bjse_OrderCancelRequest,
  .bjse_PlatformInfo,
  .bjse_PlatformInfo_NoPartitions,
  .bjse_PlatformStateInfo,
  .bjse_Quote,
  .bjse_QuoteExtend070,
  .bjse_QuoteExtend071,
  .bjse_QuoteResponse,
  .bjse_QuoteResponse_Quote2,
  .bjse_QuoteResponseExtend070,
  .bjse_QuoteStatusReport,
  .bjse_QuoteStatusReportExtend070,
  .bjse_QuoteStatusReportExtend070_Quote1,
  .bjse_ReportExtend010,
  .bjse_ReportExtend040,
  .bjse_ReportExtend050,
  .bjse_ReportFinished,
  .bjse_ReportSynchronization,
  .bjse_ReportSynchronization_ReportPartitionSync,
  .bjse_TradeCaptureCofirm,
  .bjse_TradeCaptureCofirmExtend031,
  .bjse_TradeCaptureCofirmExtend051,
  .bjse_TradeCaptureCofirmExtend060,
  .bjse_TradeCaptureCofirmExtend061,
  .bjse_TradeCaptureCofirmExtend062,
  .bjse_TradeCaptureConfirm,
  .bjse_TradeCaptureConfirmExtend031,
  .bjse_TradeCaptureConfirmExtend051,
  .bjse_TradeCaptureConfirmExtend060,
  .bjse_TradeCaptureConfirmExtend061,
  .bjse_TradeCaptureConfirmExtend062,
  .bjse_TradeCaptureReport,
  .bjse_TradeCaptureReportAck,
  .bjse_TradeCaptureReportAckExtend031,
  .bjse_TradeCaptureReportAckExtend051,
  .bjse_TradeCaptureReportAckExtend060,
  .bjse_TradeCaptureReportAckExtend061,
  .bjse_TradeCaptureReportAckExtend062,
  .bjse_TradeCaptureReportExtend031,
  .bjse_TradeCaptureReportExtend051,
  .bjse_TradeCaptureReportExtend060,
  .bjse_TradeCaptureReportExtend061,
  .bjse_TradeCaptureReportExtend062,
  .bjse_TradingSessionStatus,
  .risk_CancelReject,
  .risk_ExecutionReport,
  .risk_NewOrder,
  .risk_OrderCancel,
  .risk_OrderConfirm,
  .risk_RcBinary,
  .risk_RiskResult
]

/-- The message factories, named by the class that owns them;
file and lines stand beside each. -/
inductive Fac
  | sample_RootPacket  -- PayloadMessageFactory, sample-bin/src/main/java/com/finproto/sample/messages/RootPacket.java:115-145
  | sse_SseBinary  -- BodyMessageFactory, sse-bin/src/main/java/com/finproto/sse/bin/messages/SseBinary.java:129-225
  | szse_ExecutionConfirm  -- ApplExtendMessageFactory, szse-bin/src/main/java/com/finproto/szse/bin/messages/ExecutionConfirm.java:481-535
  | szse_ExecutionReport  -- ApplExtendMessageFactory, szse-bin/src/main/java/com/finproto/szse/bin/messages/ExecutionReport.java:421-466
  | szse_NewOrder  -- ApplExtendMessageFactory, szse-bin/src/main/java/com/finproto/szse/bin/messages/NewOrder.java:301-355
  | szse_SzseBinary  -- BodyMessageFactory, szse-bin/src/main/java/com/finproto/szse/bin/messages/SzseBinary.java:115-218
  | bjse_AllegeQuote  -- ApplExtendMessageFactory, bjse-bin/src/main/java/com/finproto/bjse/trade/messages/AllegeQuote.java:466-493
  | bjse_BjseBinary  -- BodyMessageFactory, bjse-bin/src/main/java/com/finproto/bjse/trade/messages/BjseBinary.java:102-139
  | bjse_ExecutionConfirm  -- ApplExtendMessageFactory, bjse-bin/src/main/java/com/finproto/bjse/trade/messages/ExecutionConfirm.java:466-500
  | bjse_ExecutionReport  -- ApplExtendMessageFactory, bjse-bin/src/main/java/com/finproto/bjse/trade/messages/ExecutionReport.java:406-435
  | bjse_NewOrder  -- ApplExtendMessageFactory, bjse-bin/src/main/java/com/finproto/bjse/trade/messages/NewOrder.java:301-335
  | bjse_Quote  -- ApplExtendMessageFactory, bjse-bin/src/main/java/com/finproto/bjse/trade/messages/Quote.java:301-329
  | bjse_QuoteResponse  -- ApplExtendMessageFactory, bjse-bin/src/main/java/com/finproto/bjse/trade/messages/QuoteResponse.java:439-466
  | bjse_QuoteStatusReport  -- ApplExtendMessageFactory, bjse-bin/src/main/java/com/finproto/bjse/trade/messages/QuoteStatusReport.java:361-388
  | bjse_TradeCaptureCofirm  -- applExtendMap, bjse-bin/src/main/java/com/finproto/bjse/trade/messages/TradeCaptureCofirm.java:354-370
  | bjse_TradeCaptureConfirm  -- ApplExtendMessageFactory, bjse-bin/src/main/java/com/finproto/bjse/trade/messages/TradeCaptureConfirm.java:496-527
  | bjse_TradeCaptureReport  -- ApplExtendMessageFactory, bjse-bin/src/main/java/com/finproto/bjse/trade/messages/TradeCaptureReport.java:436-467
  | bjse_TradeCaptureReportAck  -- ApplExtendMessageFactory, bjse-bin/src/main/java/com/finproto/bjse/trade/messages/TradeCaptureReportAck.java:556-587
  | risk_RcBinary  -- BodyMessageFactory, risk-bin/src/main/java/com/finproto/risk/bin/messages/RcBinary.java:108-140
  deriving DecidableEq, Repr

/-- All factories, in the order of `Fac` (file and lines there). -/
def allFac : List Fac := [.sample_RootPacket, .sse_SseBinary, .szse_ExecutionConfirm, .szse_ExecutionReport, .szse_NewOrder, .szse_SzseBinary, .bjse_AllegeQuote, .bjse_BjseBinary, .bjse_ExecutionConfirm, .bjse_ExecutionReport, .bjse_NewOrder, .bjse_Quote, .bjse_QuoteResponse, .bjse_QuoteStatusReport, .bjse_TradeCaptureCofirm, .bjse_TradeCaptureConfirm, .bjse_TradeCaptureReport, .bjse_TradeCaptureReportAck, .risk_RcBinary]

end FinProto
