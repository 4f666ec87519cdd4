import Verif.Model.CfgVal

/-! Generated by `tools/gen.py` from the text of `/repo`; do not edit. -/

namespace Ublox.Gen

/-- The argument of `cfg_val!`, `ublox/src/ubx_packets/cfg_val.rs:302-1113`; each item is
cited by its line. -/
def cfgItems : List CfgItem := [
  ⟨"Uart1Baudrate", 0x40520001, .u32⟩, -- 304
  ⟨"Uart1StopBits", 0x20520002, .stopBits⟩, -- 305
  ⟨"Uart1DataBits", 0x20520003, .dataBits⟩, -- 306
  ⟨"Uart1Parity", 0x20520004, .parity⟩, -- 307
  ⟨"Uart1Enabled", 0x10520005, .bool⟩, -- 308
  ⟨"Uart1InProtUbx", 0x10730001, .bool⟩, -- 311
  ⟨"Uart1InProtNmea", 0x10730002, .bool⟩, -- 312
  ⟨"Uart1InProtRtcm3x", 0x10730004, .bool⟩, -- 313
  ⟨"Uart1OutProtUbx", 0x10740001, .bool⟩, -- 316
  ⟨"Uart1OutProtNmea", 0x10740002, .bool⟩, -- 317
  ⟨"Uart1OutProtRtcm3x", 0x10740004, .bool⟩, -- 318
  ⟨"Uart2Baudrate", 0x40530001, .u32⟩, -- 321
  ⟨"Uart2StopBits", 0x20530002, .stopBits⟩, -- 322
  ⟨"Uart2DataBits", 0x20530003, .dataBits⟩, -- 323
  ⟨"Uart2Parity", 0x20530004, .parity⟩, -- 324
  ⟨"Uart2Enabled", 0x10530005, .bool⟩, -- 325
  ⟨"Uart2Remap", 0x10530006, .bool⟩, -- 326
  ⟨"Uart2InProtUbx", 0x10750001, .bool⟩, -- 329
  ⟨"Uart2InProtNmea", 0x10750002, .bool⟩, -- 330
  ⟨"Uart2InProtRtcm3x", 0x10750004, .bool⟩, -- 331
  ⟨"Uart2OutProtUbx", 0x10760001, .bool⟩, -- 334
  ⟨"Uart2OutProtNmea", 0x10760002, .bool⟩, -- 335
  ⟨"Uart2OutProtRtcm3x", 0x10760004, .bool⟩, -- 336
  ⟨"UsbEnabled", 0x10650001, .bool⟩, -- 339
  ⟨"UsbSelfpow", 0x10650002, .bool⟩, -- 340
  ⟨"UsbVendorId", 0x3065000a, .u16⟩, -- 341
  ⟨"UsbProductId", 0x3065000b, .u16⟩, -- 342
  ⟨"UsbPower", 0x3065000c, .u16⟩, -- 343
  ⟨"UsbVendorStr0", 0x5065000d, .u64⟩, -- 344
  ⟨"UsbVendorStr1", 0x5065000e, .u64⟩, -- 345
  ⟨"UsbVendorStr2", 0x5065000f, .u64⟩, -- 346
  ⟨"UsbVendorStr3", 0x50650010, .u64⟩, -- 347
  ⟨"UsbProductStr0", 0x50650011, .u64⟩, -- 348
  ⟨"UsbProductStr1", 0x50650012, .u64⟩, -- 349
  ⟨"UsbProductStr2", 0x50650013, .u64⟩, -- 350
  ⟨"UsbProductStr3", 0x50650014, .u64⟩, -- 351
  ⟨"UsbSerialNoStr0", 0x50650015, .u64⟩, -- 352
  ⟨"UsbSerialNoStr1", 0x50650016, .u64⟩, -- 353
  ⟨"UsbSerialNoStr2", 0x50650017, .u64⟩, -- 354
  ⟨"UsbSerialNoStr3", 0x50650018, .u64⟩, -- 355
  ⟨"UsbinprotUbx", 0x10770001, .bool⟩, -- 358
  ⟨"UsbinprotNmea", 0x10770002, .bool⟩, -- 359
  ⟨"UsbinprotRtcm3X", 0x10770004, .bool⟩, -- 360
  ⟨"UsbOutProtUbx", 0x10780001, .bool⟩, -- 363
  ⟨"UsbOutProtNmea", 0x10780002, .bool⟩, -- 364
  ⟨"UsbOutProtRtcm3x", 0x10780004, .bool⟩, -- 365
  ⟨"InfmsgUbxI2c", 0x20920001, .cfgInfMask⟩, -- 368
  ⟨"InfmsgUbxUart1", 0x20920002, .cfgInfMask⟩, -- 369
  ⟨"InfmsgUbxUart2", 0x20920003, .cfgInfMask⟩, -- 370
  ⟨"InfmsgUbxUsb", 0x20920004, .cfgInfMask⟩, -- 371
  ⟨"InfmsgUbxSpi", 0x20920005, .cfgInfMask⟩, -- 372
  ⟨"InfmsgNmeaI2c", 0x20920006, .cfgInfMask⟩, -- 373
  ⟨"InfmsgNmeaUart1", 0x20920007, .cfgInfMask⟩, -- 374
  ⟨"InfmsgNmeaUart2", 0x20920008, .cfgInfMask⟩, -- 375
  ⟨"InfmsgNmeaUsb", 0x20920009, .cfgInfMask⟩, -- 376
  ⟨"InfmsgNmeaSpi", 0x2092000a, .cfgInfMask⟩, -- 377
  ⟨"RateMeas", 0x30210001, .u16⟩, -- 382
  ⟨"RateNav", 0x30210002, .u16⟩, -- 384
  ⟨"RateTimeref", 0x20210003, .alignment⟩, -- 386
  ⟨"MsgoutNmeaIdDtmI2c", 0x209100a6, .u8⟩, -- 390
  ⟨"MsgoutNmeaIdDtmSpi", 0x209100aa, .u8⟩, -- 392
  ⟨"MsgoutNmeaIdDtmUart1", 0x209100a7, .u8⟩, -- 394
  ⟨"MsgoutNmeaIdDtmUart2", 0x209100a8, .u8⟩, -- 396
  ⟨"MsgoutNmeaIdDtmUsb", 0x209100a9, .u8⟩, -- 398
  ⟨"MsgoutNmeaIdGbsI2c", 0x209100dd, .u8⟩, -- 400
  ⟨"MsgoutNmeaIdGbsSpi", 0x209100e1, .u8⟩, -- 402
  ⟨"MsgoutNmeaIdGbsUart1", 0x209100de, .u8⟩, -- 404
  ⟨"MsgoutNmeaIdGbsUart2", 0x209100df, .u8⟩, -- 406
  ⟨"MsgoutNmeaIdGbsUsb", 0x209100e0, .u8⟩, -- 408
  ⟨"MsgoutNmeaIdGgaI2c", 0x209100ba, .u8⟩, -- 410
  ⟨"MsgoutNmeaIdGgaSpi", 0x209100be, .u8⟩, -- 412
  ⟨"MsgoutNmeaIdGgaUart1", 0x209100bb, .u8⟩, -- 414
  ⟨"MsgoutNmeaIdGgaUart2", 0x209100bc, .u8⟩, -- 416
  ⟨"MsgoutNmeaIdGgaUsb", 0x209100bd, .u8⟩, -- 418
  ⟨"MsgoutNmeaIdGllI2c", 0x209100c9, .u8⟩, -- 420
  ⟨"MsgoutNmeaIdGllSpi", 0x209100cd, .u8⟩, -- 422
  ⟨"MsgoutNmeaIdGllUart1", 0x209100ca, .u8⟩, -- 424
  ⟨"MsgoutNmeaIdGllUart2", 0x209100cb, .u8⟩, -- 426
  ⟨"MsgoutNmeaIdGllUsb", 0x209100cc, .u8⟩, -- 428
  ⟨"MsgoutNmeaIdGnsI2c", 0x209100b5, .u8⟩, -- 430
  ⟨"MsgoutNmeaIdGnsSpi", 0x209100b9, .u8⟩, -- 432
  ⟨"MsgoutNmeaIdGnsUart1", 0x209100b6, .u8⟩, -- 434
  ⟨"MsgoutNmeaIdGnsUart2", 0x209100b7, .u8⟩, -- 436
  ⟨"MsgoutNmeaIdGnsUsb", 0x209100b8, .u8⟩, -- 438
  ⟨"MsgoutNmeaIdGrsI2c", 0x209100ce, .u8⟩, -- 440
  ⟨"MsgoutNmeaIdGrsSpi", 0x209100d2, .u8⟩, -- 442
  ⟨"MsgoutNmeaIdGrsUart1", 0x209100cf, .u8⟩, -- 444
  ⟨"MsgoutNmeaIdGrsUart2", 0x209100d0, .u8⟩, -- 446
  ⟨"MsgoutNmeaIdGrsUsb", 0x209100d1, .u8⟩, -- 448
  ⟨"MsgoutNmeaIdGsaI2c", 0x209100bf, .u8⟩, -- 450
  ⟨"MsgoutNmeaIdGsaSpi", 0x209100c3, .u8⟩, -- 452
  ⟨"MsgoutNmeaIdGsaUart1", 0x209100c0, .u8⟩, -- 454
  ⟨"MsgoutNmeaIdGsaUart2", 0x209100c1, .u8⟩, -- 456
  ⟨"MsgoutNmeaIdGsaUsb", 0x209100c2, .u8⟩, -- 458
  ⟨"MsgoutNmeaIdGstI2c", 0x209100d3, .u8⟩, -- 460
  ⟨"MsgoutNmeaIdGstSpi", 0x209100d7, .u8⟩, -- 462
  ⟨"MsgoutNmeaIdGstUart1", 0x209100d4, .u8⟩, -- 464
  ⟨"MsgoutNmeaIdGstUart2", 0x209100d5, .u8⟩, -- 466
  ⟨"MsgoutNmeaIdGstUsb", 0x209100d6, .u8⟩, -- 468
  ⟨"MsgoutNmeaIdGsvI2c", 0x209100c4, .u8⟩, -- 470
  ⟨"MsgoutNmeaIdGsvSpi", 0x209100c8, .u8⟩, -- 472
  ⟨"MsgoutNmeaIdGsvUart1", 0x209100c5, .u8⟩, -- 474
  ⟨"MsgoutNmeaIdGsvUart2", 0x209100c6, .u8⟩, -- 476
  ⟨"MsgoutNmeaIdGsvUsb", 0x209100c7, .u8⟩, -- 478
  ⟨"MsgoutNmeaIdRmcI2c", 0x209100ab, .u8⟩, -- 480
  ⟨"MsgoutNmeaIdRmcSpi", 0x209100af, .u8⟩, -- 482
  ⟨"MsgoutNmeaIdRmcUart1", 0x209100ac, .u8⟩, -- 484
  ⟨"MsgoutNmeaIdRmcUart2", 0x209100ad, .u8⟩, -- 486
  ⟨"MsgoutNmeaIdRmcUsb", 0x209100ae, .u8⟩, -- 488
  ⟨"MsgoutNmeaIdVlwI2c", 0x209100e7, .u8⟩, -- 490
  ⟨"MsgoutNmeaIdVlwSpi", 0x209100eb, .u8⟩, -- 492
  ⟨"MsgoutNmeaIdVlwUart1", 0x209100e8, .u8⟩, -- 494
  ⟨"MsgoutNmeaIdVlwUart2", 0x209100e9, .u8⟩, -- 496
  ⟨"MsgoutNmeaIdVlwUsb", 0x209100ea, .u8⟩, -- 498
  ⟨"MsgoutNmeaIdVtgI2c", 0x209100b0, .u8⟩, -- 500
  ⟨"MsgoutNmeaIdVtgSpi", 0x209100b4, .u8⟩, -- 502
  ⟨"MsgoutNmeaIdVtgUart1", 0x209100b1, .u8⟩, -- 504
  ⟨"MsgoutNmeaIdVtgUart2", 0x209100b2, .u8⟩, -- 506
  ⟨"MsgoutNmeaIdVtgUsb", 0x209100b3, .u8⟩, -- 508
  ⟨"MsgoutNmeaIdZdaI2c", 0x209100d8, .u8⟩, -- 510
  ⟨"MsgoutNmeaIdZdaSpi", 0x209100dc, .u8⟩, -- 512
  ⟨"MsgoutNmeaIdZdaUart1", 0x209100d9, .u8⟩, -- 514
  ⟨"MsgoutNmeaIdZdaUart2", 0x209100da, .u8⟩, -- 516
  ⟨"MsgoutNmeaIdZdaUsb", 0x209100db, .u8⟩, -- 518
  ⟨"MsgoutPubxIdPolypI2c", 0x209100ec, .u8⟩, -- 520
  ⟨"MsgoutPubxIdPolypSpi", 0x209100f0, .u8⟩, -- 522
  ⟨"MsgoutPubxIdPolypUart1", 0x209100ed, .u8⟩, -- 524
  ⟨"MsgoutPubxIdPolypUart2", 0x209100ee, .u8⟩, -- 526
  ⟨"MsgoutPubxIdPolypUsb", 0x209100ef, .u8⟩, -- 528
  ⟨"MsgoutPubxIdPolysI2c", 0x209100f1, .u8⟩, -- 530
  ⟨"MsgoutPubxIdPolysSpi", 0x209100f5, .u8⟩, -- 532
  ⟨"MsgoutPubxIdPolysUart1", 0x209100f2, .u8⟩, -- 534
  ⟨"MsgoutPubxIdPolysUart2", 0x209100f3, .u8⟩, -- 536
  ⟨"MsgoutPubxIdPolysUsb", 0x209100f4, .u8⟩, -- 538
  ⟨"MsgoutPubxIdPolytI2c", 0x209100f6, .u8⟩, -- 540
  ⟨"MsgoutPubxIdPolytSpi", 0x209100fa, .u8⟩, -- 542
  ⟨"MsgoutPubxIdPolytUart1", 0x209100f7, .u8⟩, -- 544
  ⟨"MsgoutPubxIdPolytUart2", 0x209100f8, .u8⟩, -- 546
  ⟨"MsgoutPubxIdPolytUsb", 0x209100f9, .u8⟩, -- 548
  ⟨"MsgoutRtcm3xType1005I2c", 0x209102bd, .u8⟩, -- 550
  ⟨"MsgoutRtcm3xType1005Spi", 0x209102c1, .u8⟩, -- 552
  ⟨"MsgoutRtcm3xType1005Uart1", 0x209102be, .u8⟩, -- 554
  ⟨"MsgoutRtcm3xType1005Uart2", 0x209102bf, .u8⟩, -- 556
  ⟨"MsgoutRtcm3xType1005Usb", 0x209102c0, .u8⟩, -- 558
  ⟨"MsgoutRtcm3xType1074I2c", 0x2091035e, .u8⟩, -- 560
  ⟨"MsgoutRtcm3xType1074Spi", 0x20910362, .u8⟩, -- 562
  ⟨"MsgoutRtcm3xType1074Uart1", 0x2091035f, .u8⟩, -- 564
  ⟨"MsgoutRtcm3xType1074Uart2", 0x20910360, .u8⟩, -- 566
  ⟨"MsgoutRtcm3xType1074Usb", 0x20910361, .u8⟩, -- 568
  ⟨"MsgoutRtcm3xType1077I2c", 0x209102cc, .u8⟩, -- 570
  ⟨"MsgoutRtcm3xType1077Spi", 0x209102d0, .u8⟩, -- 572
  ⟨"MsgoutRtcm3xType1077Uart1", 0x209102cd, .u8⟩, -- 574
  ⟨"MsgoutRtcm3xType1077Uart2", 0x209102ce, .u8⟩, -- 576
  ⟨"MsgoutRtcm3xType1077Usb", 0x209102cf, .u8⟩, -- 578
  ⟨"MsgoutRtcm3xType1084I2c", 0x20910363, .u8⟩, -- 580
  ⟨"MsgoutRtcm3xType1084Spi", 0x20910367, .u8⟩, -- 582
  ⟨"MsgoutRtcm3xType1084Uart1", 0x20910364, .u8⟩, -- 584
  ⟨"MsgoutRtcm3xType1084Uart2", 0x20910365, .u8⟩, -- 586
  ⟨"MsgoutRtcm3xType1084Usb", 0x20910366, .u8⟩, -- 588
  ⟨"MsgoutRtcm3xType1087I2c", 0x209102d1, .u8⟩, -- 590
  ⟨"MsgoutRtcm3xType1087Spi", 0x209102d5, .u8⟩, -- 592
  ⟨"MsgoutRtcm3xType1087Uart1", 0x209102d2, .u8⟩, -- 594
  ⟨"MsgoutRtcm3xType1087Uart2", 0x209102d3, .u8⟩, -- 596
  ⟨"MsgoutRtcm3xType1087Usb", 0x209102d4, .u8⟩, -- 598
  ⟨"MsgoutRtcm3xType1094I2c", 0x20910368, .u8⟩, -- 600
  ⟨"MsgoutRtcm3xType1094Spi", 0x2091036c, .u8⟩, -- 602
  ⟨"MsgoutRtcm3xType1094Uart1", 0x20910369, .u8⟩, -- 604
  ⟨"MsgoutRtcm3xType1094Uart2", 0x2091036a, .u8⟩, -- 606
  ⟨"MsgoutRtcm3xType1094Usb", 0x2091036b, .u8⟩, -- 608
  ⟨"MsgoutRtcm3xType1097I2c", 0x20910318, .u8⟩, -- 610
  ⟨"MsgoutRtcm3xType1097Spi", 0x2091031c, .u8⟩, -- 612
  ⟨"MsgoutRtcm3xType1097Uart1", 0x20910319, .u8⟩, -- 614
  ⟨"MsgoutRtcm3xType1097Uart2", 0x2091031a, .u8⟩, -- 616
  ⟨"MsgoutRtcm3xType1097Usb", 0x2091031b, .u8⟩, -- 618
  ⟨"MsgoutRtcm3xType1124I2c", 0x2091036d, .u8⟩, -- 620
  ⟨"MsgoutRtcm3xType1124Spi", 0x20910371, .u8⟩, -- 622
  ⟨"MsgoutRtcm3xType1124Uart1", 0x2091036e, .u8⟩, -- 624
  ⟨"MsgoutRtcm3xType1124Uart2", 0x2091036f, .u8⟩, -- 626
  ⟨"MsgoutRtcm3xType1124Usb", 0x20910370, .u8⟩, -- 628
  ⟨"MsgoutRtcm3xType1127I2c", 0x209102d6, .u8⟩, -- 630
  ⟨"MsgoutRtcm3xType1127Spi", 0x209102da, .u8⟩, -- 632
  ⟨"MsgoutRtcm3xType1127Uart1", 0x209102d7, .u8⟩, -- 634
  ⟨"MsgoutRtcm3xType1127Uart2", 0x209102d8, .u8⟩, -- 636
  ⟨"MsgoutRtcm3xType1127Usb", 0x209102d9, .u8⟩, -- 638
  ⟨"MsgoutRtcm3xType1230I2c", 0x20910303, .u8⟩, -- 640
  ⟨"MsgoutRtcm3xType1230Spi", 0x20910307, .u8⟩, -- 642
  ⟨"MsgoutRtcm3xType1230Uart1", 0x20910304, .u8⟩, -- 644
  ⟨"MsgoutRtcm3xType1230Uart2", 0x20910305, .u8⟩, -- 646
  ⟨"MsgoutRtcm3xType1230Usb", 0x20910306, .u8⟩, -- 648
  ⟨"MsgoutUbxLogInfoI2c", 0x20910259, .u8⟩, -- 650
  ⟨"MsgoutUbxLogInfoSpi", 0x2091025d, .u8⟩, -- 652
  ⟨"MsgoutUbxLogInfoUart1", 0x2091025a, .u8⟩, -- 654
  ⟨"MsgoutUbxLogInfoUart2", 0x2091025b, .u8⟩, -- 656
  ⟨"MsgoutUbxLogInfoUsb", 0x2091025c, .u8⟩, -- 658
  ⟨"MsgoutUbxMonCommsI2c", 0x2091034f, .u8⟩, -- 660
  ⟨"MsgoutUbxMonCommsSpi", 0x20910353, .u8⟩, -- 662
  ⟨"MsgoutUbxMonCommsUart1", 0x20910350, .u8⟩, -- 664
  ⟨"MsgoutUbxMonCommsUart2", 0x20910351, .u8⟩, -- 666
  ⟨"MsgoutUbxMonCommsUsb", 0x20910352, .u8⟩, -- 668
  ⟨"MsgoutUbxMonHw2I2c", 0x209101b9, .u8⟩, -- 670
  ⟨"MsgoutUbxMonHw2Spi", 0x209101bd, .u8⟩, -- 672
  ⟨"MsgoutUbxMonHw2Uart1", 0x209101ba, .u8⟩, -- 674
  ⟨"MsgoutUbxMonHw2Uart2", 0x209101bb, .u8⟩, -- 676
  ⟨"MsgoutUbxMonHw2Usb", 0x209101bc, .u8⟩, -- 678
  ⟨"MsgoutUbxMonHw3I2c", 0x20910354, .u8⟩, -- 680
  ⟨"MsgoutUbxMonHw3Spi", 0x20910358, .u8⟩, -- 682
  ⟨"MsgoutUbxMonHw3Uart1", 0x20910355, .u8⟩, -- 684
  ⟨"MsgoutUbxMonHw3Uart2", 0x20910356, .u8⟩, -- 686
  ⟨"MsgoutUbxMonHw3Usb", 0x20910357, .u8⟩, -- 688
  ⟨"MsgoutUbxMonHwI2c", 0x209101b4, .u8⟩, -- 690
  ⟨"MsgoutUbxMonHwSpi", 0x209101b8, .u8⟩, -- 692
  ⟨"MsgoutUbxMonHwUart1", 0x209101b5, .u8⟩, -- 694
  ⟨"MsgoutUbxMonHwUart2", 0x209101b6, .u8⟩, -- 696
  ⟨"MsgoutUbxMonHwUsb", 0x209101b7, .u8⟩, -- 698
  ⟨"MsgoutUbxMonIoI2c", 0x209101a5, .u8⟩, -- 700
  ⟨"MsgoutUbxMonIoSpi", 0x209101a9, .u8⟩, -- 702
  ⟨"MsgoutUbxMonIoUart1", 0x209101a6, .u8⟩, -- 704
  ⟨"MsgoutUbxMonIoUart2", 0x209101a7, .u8⟩, -- 706
  ⟨"MsgoutUbxMonIoUsb", 0x209101a8, .u8⟩, -- 708
  ⟨"MsgoutUbxMonMsgPpI2c", 0x20910196, .u8⟩, -- 710
  ⟨"MsgoutUbxMonMsgPpSpi", 0x2091019a, .u8⟩, -- 712
  ⟨"MsgoutUbxMonMsgPpUart1", 0x20910197, .u8⟩, -- 714
  ⟨"MsgoutUbxMonMsgPpUart2", 0x20910198, .u8⟩, -- 716
  ⟨"MsgoutUbxMonMsgPpUsb", 0x20910199, .u8⟩, -- 718
  ⟨"MsgoutUbxMonRfI2c", 0x20910359, .u8⟩, -- 720
  ⟨"MsgoutUbxMonRfSpi", 0x2091035d, .u8⟩, -- 722
  ⟨"MsgoutUbxMonRfUart1", 0x2091035a, .u8⟩, -- 724
  ⟨"MsgoutUbxMonRfUart2", 0x2091035b, .u8⟩, -- 726
  ⟨"MsgoutUbxMonRfUsb", 0x2091035c, .u8⟩, -- 728
  ⟨"MsgoutUbxMonRxbufI2c", 0x209101a0, .u8⟩, -- 730
  ⟨"MsgoutUbxMonRxbufSpi", 0x209101a4, .u8⟩, -- 732
  ⟨"MsgoutUbxMonRxbufUart1", 0x209101a1, .u8⟩, -- 734
  ⟨"MsgoutUbxMonRxbufUart2", 0x209101a2, .u8⟩, -- 736
  ⟨"MsgoutUbxMonRxbufUsb", 0x209101a3, .u8⟩, -- 738
  ⟨"MsgoutUbxMonRxrI2c", 0x20910187, .u8⟩, -- 740
  ⟨"MsgoutUbxMonRxrSpi", 0x2091018b, .u8⟩, -- 742
  ⟨"MsgoutUbxMonRxrUart1", 0x20910188, .u8⟩, -- 744
  ⟨"MsgoutUbxMonRxrUart2", 0x20910189, .u8⟩, -- 746
  ⟨"MsgoutUbxMonRxrUsb", 0x2091018a, .u8⟩, -- 748
  ⟨"MsgoutUbxMonTxbufI2c", 0x2091019b, .u8⟩, -- 750
  ⟨"MsgoutUbxMonTxbufSpi", 0x2091019f, .u8⟩, -- 752
  ⟨"MsgoutUbxMonTxbufUart1", 0x2091019c, .u8⟩, -- 754
  ⟨"MsgoutUbxMonTxbufUart2", 0x2091019d, .u8⟩, -- 756
  ⟨"MsgoutUbxMonTxbufUsb", 0x2091019e, .u8⟩, -- 758
  ⟨"MsgoutUbxNavClockI2c", 0x20910065, .u8⟩, -- 760
  ⟨"MsgoutUbxNavClockSpi", 0x20910069, .u8⟩, -- 762
  ⟨"MsgoutUbxNavClockUart1", 0x20910066, .u8⟩, -- 764
  ⟨"MsgoutUbxNavClockUart2", 0x20910067, .u8⟩, -- 766
  ⟨"MsgoutUbxNavClockUsb", 0x20910068, .u8⟩, -- 768
  ⟨"MsgoutUbxNavDopI2c", 0x20910038, .u8⟩, -- 770
  ⟨"MsgoutUbxNavDopSpi", 0x2091003c, .u8⟩, -- 772
  ⟨"MsgoutUbxNavDopUart1", 0x20910039, .u8⟩, -- 774
  ⟨"MsgoutUbxNavDopUart2", 0x2091003a, .u8⟩, -- 776
  ⟨"MsgoutUbxNavDopUsb", 0x2091003b, .u8⟩, -- 778
  ⟨"MsgoutUbxNavEoeI2c", 0x2091015f, .u8⟩, -- 780
  ⟨"MsgoutUbxNavEoeSpi", 0x20910163, .u8⟩, -- 782
  ⟨"MsgoutUbxNavEoeUart1", 0x20910160, .u8⟩, -- 784
  ⟨"MsgoutUbxNavEoeUart2", 0x20910161, .u8⟩, -- 786
  ⟨"MsgoutUbxNavEoeUsb", 0x20910162, .u8⟩, -- 788
  ⟨"MsgoutUbxNavGeofenceI2c", 0x209100a1, .u8⟩, -- 790
  ⟨"MsgoutUbxNavGeofenceSpi", 0x209100a5, .u8⟩, -- 792
  ⟨"MsgoutUbxNavGeofenceUart1", 0x209100a2, .u8⟩, -- 794
  ⟨"MsgoutUbxNavGeofenceUart2", 0x209100a3, .u8⟩, -- 796
  ⟨"MsgoutUbxNavGeofenceUsb", 0x209100a4, .u8⟩, -- 798
  ⟨"MsgoutUbxNavHpPosEcefI2c", 0x2091002e, .u8⟩, -- 800
  ⟨"MsgoutUbxNavHpPosEcefSpi", 0x20910032, .u8⟩, -- 802
  ⟨"MsgoutUbxNavHpPosEcefUart1", 0x2091002f, .u8⟩, -- 804
  ⟨"MsgoutUbxNavHpPosEcefUart2", 0x20910030, .u8⟩, -- 806
  ⟨"MsgoutUbxNavHpPosEcefUsb", 0x20910031, .u8⟩, -- 808
  ⟨"MsgoutUbxNavHpPosllhI2c", 0x20910033, .u8⟩, -- 810
  ⟨"MsgoutUbxNavHpPosllhSpi", 0x20910037, .u8⟩, -- 812
  ⟨"MsgoutUbxNavHpPosllhUart1", 0x20910034, .u8⟩, -- 814
  ⟨"MsgoutUbxNavHpPosllhUart2", 0x20910035, .u8⟩, -- 816
  ⟨"MsgoutUbxNavHpPosllhUsb", 0x20910036, .u8⟩, -- 818
  ⟨"MsgoutUbxNavOdoI2c", 0x2091007e, .u8⟩, -- 820
  ⟨"MsgoutUbxNavOdoSpi", 0x20910082, .u8⟩, -- 822
  ⟨"MsgoutUbxNavOdoUart1", 0x2091007f, .u8⟩, -- 824
  ⟨"MsgoutUbxNavOdoUart2", 0x20910080, .u8⟩, -- 826
  ⟨"MsgoutUbxNavOdoUsb", 0x20910081, .u8⟩, -- 828
  ⟨"MsgoutUbxNavOrbI2c", 0x20910010, .u8⟩, -- 830
  ⟨"MsgoutUbxNavOrbSpi", 0x20910014, .u8⟩, -- 832
  ⟨"MsgoutUbxNavOrbUart1", 0x20910011, .u8⟩, -- 834
  ⟨"MsgoutUbxNavOrbUart2", 0x20910012, .u8⟩, -- 836
  ⟨"MsgoutUbxNavOrbUsb", 0x20910013, .u8⟩, -- 838
  ⟨"MsgoutUbxNavPosEcefI2c", 0x20910024, .u8⟩, -- 840
  ⟨"MsgoutUbxNavPosEcefSpi", 0x20910028, .u8⟩, -- 842
  ⟨"MsgoutUbxNavPosEcefUart1", 0x20910025, .u8⟩, -- 844
  ⟨"MsgoutUbxNavPosEcefUart2", 0x20910026, .u8⟩, -- 846
  ⟨"MsgoutUbxNavPosEcefUsb", 0x20910027, .u8⟩, -- 848
  ⟨"MsgoutUbxNavPosLlhI2c", 0x20910029, .u8⟩, -- 850
  ⟨"MsgoutUbxNavPosLlhSpi", 0x2091002d, .u8⟩, -- 852
  ⟨"MsgoutUbxNavPosLlhUart1", 0x2091002a, .u8⟩, -- 854
  ⟨"MsgoutUbxNavPosLlhUart2", 0x2091002b, .u8⟩, -- 856
  ⟨"MsgoutUbxNavPosLlhUsb", 0x2091002c, .u8⟩, -- 858
  ⟨"MsgoutUbxNavPvtI2c", 0x20910006, .u8⟩, -- 860
  ⟨"MsgoutUbxNavPvtSpi", 0x2091000a, .u8⟩, -- 862
  ⟨"MsgoutUbxNavPvtUart1", 0x20910007, .u8⟩, -- 864
  ⟨"MsgoutUbxNavPvtUart2", 0x20910008, .u8⟩, -- 866
  ⟨"MsgoutUbxNavPvtUsb", 0x20910009, .u8⟩, -- 868
  ⟨"MsgoutUbxNavRelposnedI2c", 0x2091008d, .u8⟩, -- 870
  ⟨"MsgoutUbxNavRelposnedSpi", 0x20910091, .u8⟩, -- 872
  ⟨"MsgoutUbxNavRelposnedUart1", 0x2091008e, .u8⟩, -- 874
  ⟨"MsgoutUbxNavRelposnedUart2", 0x2091008f, .u8⟩, -- 876
  ⟨"MsgoutUbxNavRelposnedUsb", 0x20910090, .u8⟩, -- 878
  ⟨"MsgoutUbxNavSatI2c", 0x20910015, .u8⟩, -- 880
  ⟨"MsgoutUbxNavSatSpi", 0x20910019, .u8⟩, -- 882
  ⟨"MsgoutUbxNavSatUart1", 0x20910016, .u8⟩, -- 884
  ⟨"MsgoutUbxNavSatUart2", 0x20910017, .u8⟩, -- 886
  ⟨"MsgoutUbxNavSatUsb", 0x20910018, .u8⟩, -- 888
  ⟨"MsgoutUbxNavSigI2c", 0x20910345, .u8⟩, -- 890
  ⟨"MsgoutUbxNavSigSpi", 0x20910349, .u8⟩, -- 892
  ⟨"MsgoutUbxNavSigUart1", 0x20910346, .u8⟩, -- 894
  ⟨"MsgoutUbxNavSigUart2", 0x20910347, .u8⟩, -- 896
  ⟨"MsgoutUbxNavSigUsb", 0x20910348, .u8⟩, -- 898
  ⟨"MsgoutUbxNavStatusI2c", 0x2091001a, .u8⟩, -- 900
  ⟨"MsgoutUbxNavStatusSpi", 0x2091001e, .u8⟩, -- 902
  ⟨"MsgoutUbxNavStatusUart1", 0x2091001b, .u8⟩, -- 904
  ⟨"MsgoutUbxNavStatusUart2", 0x2091001c, .u8⟩, -- 906
  ⟨"MsgoutUbxNavStatusUsb", 0x2091001d, .u8⟩, -- 908
  ⟨"MsgoutUbxNavSvinI2c", 0x20910088, .u8⟩, -- 910
  ⟨"MsgoutUbxNavSvinSpi", 0x2091008c, .u8⟩, -- 912
  ⟨"MsgoutUbxNavSvinUart1", 0x20910089, .u8⟩, -- 914
  ⟨"MsgoutUbxNavSvinUart2", 0x2091008a, .u8⟩, -- 916
  ⟨"MsgoutUbxNavSvinUsb", 0x2091008b, .u8⟩, -- 918
  ⟨"MsgoutUbxNavTimeBdsI2c", 0x20910051, .u8⟩, -- 920
  ⟨"MsgoutUbxNavTimeBdsSpi", 0x20910055, .u8⟩, -- 922
  ⟨"MsgoutUbxNavTimeBdsUart1", 0x20910052, .u8⟩, -- 924
  ⟨"MsgoutUbxNavTimeBdsUart2", 0x20910053, .u8⟩, -- 926
  ⟨"MsgoutUbxNavTimeBdsUsb", 0x20910054, .u8⟩, -- 928
  ⟨"MsgoutUbxNavTimeGalI2c", 0x20910056, .u8⟩, -- 930
  ⟨"MsgoutUbxNavTimeGalSpi", 0x2091005a, .u8⟩, -- 932
  ⟨"MsgoutUbxNavTimeGalUart1", 0x20910057, .u8⟩, -- 934
  ⟨"MsgoutUbxNavTimeGalUart2", 0x20910058, .u8⟩, -- 936
  ⟨"MsgoutUbxNavTimeGalUsb", 0x20910059, .u8⟩, -- 938
  ⟨"MsgoutUbxNavTimeGloI2c", 0x2091004c, .u8⟩, -- 940
  ⟨"MsgoutUbxNavTimeGloSpi", 0x20910050, .u8⟩, -- 942
  ⟨"MsgoutUbxNavTimeGloUart1", 0x2091004d, .u8⟩, -- 944
  ⟨"MsgoutUbxNavTimeGloUart2", 0x2091004e, .u8⟩, -- 946
  ⟨"MsgoutUbxNavTimeGloUsb", 0x2091004f, .u8⟩, -- 948
  ⟨"MsgoutUbxNavTimeGpsI2c", 0x20910047, .u8⟩, -- 950
  ⟨"MsgoutUbxNavTimeGpsSpi", 0x2091004b, .u8⟩, -- 952
  ⟨"MsgoutUbxNavTimeGpsUart1", 0x20910048, .u8⟩, -- 954
  ⟨"MsgoutUbxNavTimeGpsUart2", 0x20910049, .u8⟩, -- 956
  ⟨"MsgoutUbxNavTimeGpsUsb", 0x2091004a, .u8⟩, -- 958
  ⟨"MsgoutUbxNavTimeLsI2c", 0x20910060, .u8⟩, -- 960
  ⟨"MsgoutUbxNavTimeLsSpi", 0x20910064, .u8⟩, -- 962
  ⟨"MsgoutUbxNavTimeLsUart1", 0x20910061, .u8⟩, -- 964
  ⟨"MsgoutUbxNavTimeLsUart2", 0x20910062, .u8⟩, -- 966
  ⟨"MsgoutUbxNavTimeLsUsb", 0x20910063, .u8⟩, -- 968
  ⟨"MsgoutUbxNavTimeUtcI2c", 0x2091005b, .u8⟩, -- 970
  ⟨"MsgoutUbxNavTimeUtcSpi", 0x2091005f, .u8⟩, -- 972
  ⟨"MsgoutUbxNavTimeUtcUart1", 0x2091005c, .u8⟩, -- 974
  ⟨"MsgoutUbxNavTimeUtcUart2", 0x2091005d, .u8⟩, -- 976
  ⟨"MsgoutUbxNavTimeUtcUsb", 0x2091005e, .u8⟩, -- 978
  ⟨"MsgoutUbxNavVelEcefI2c", 0x2091003d, .u8⟩, -- 980
  ⟨"MsgoutUbxNavVelEcefSpi", 0x20910041, .u8⟩, -- 982
  ⟨"MsgoutUbxNavVelEcefUart1", 0x2091003e, .u8⟩, -- 984
  ⟨"MsgoutUbxNavVelEcefUart2", 0x2091003f, .u8⟩, -- 986
  ⟨"MsgoutUbxNavVelEcefUsb", 0x20910040, .u8⟩, -- 988
  ⟨"MsgoutUbxNavVelNedI2c", 0x20910042, .u8⟩, -- 990
  ⟨"MsgoutUbxNavVelNedSpi", 0x20910046, .u8⟩, -- 992
  ⟨"MsgoutUbxNavVelNedUart1", 0x20910043, .u8⟩, -- 994
  ⟨"MsgoutUbxNavVelNedUart2", 0x20910044, .u8⟩, -- 996
  ⟨"MsgoutUbxNavVelNedUsb", 0x20910045, .u8⟩, -- 998
  ⟨"MsgoutUbxRxmMeasxI2c", 0x20910204, .u8⟩, -- 1000
  ⟨"MsgoutUbxRxmMeasxSpi", 0x20910208, .u8⟩, -- 1002
  ⟨"MsgoutUbxRxmMeasxUart1", 0x20910205, .u8⟩, -- 1004
  ⟨"MsgoutUbxRxmMeasxUart2", 0x20910206, .u8⟩, -- 1006
  ⟨"MsgoutUbxRxmMeasxUsb", 0x20910207, .u8⟩, -- 1008
  ⟨"MsgoutUbxRxmRawxI2c", 0x209102a4, .u8⟩, -- 1010
  ⟨"MsgoutUbxRxmRawxSpi", 0x209102a8, .u8⟩, -- 1012
  ⟨"MsgoutUbxRxmRawxUart1", 0x209102a5, .u8⟩, -- 1014
  ⟨"MsgoutUbxRxmRawxUart2", 0x209102a6, .u8⟩, -- 1016
  ⟨"MsgoutUbxRxmRawxUsb", 0x209102a7, .u8⟩, -- 1018
  ⟨"MsgoutUbxRxmRlmI2c", 0x2091025e, .u8⟩, -- 1020
  ⟨"MsgoutUbxRxmRlmSpi", 0x20910262, .u8⟩, -- 1022
  ⟨"MsgoutUbxRxmRlmUart1", 0x2091025f, .u8⟩, -- 1024
  ⟨"MsgoutUbxRxmRlmUart2", 0x20910260, .u8⟩, -- 1026
  ⟨"MsgoutUbxRxmRlmUsb", 0x20910261, .u8⟩, -- 1028
  ⟨"MsgoutUbxRxmRtcmI2c", 0x20910268, .u8⟩, -- 1030
  ⟨"MsgoutUbxRxmRtcmSpi", 0x2091026c, .u8⟩, -- 1032
  ⟨"MsgoutUbxRxmRtcmUart1", 0x20910269, .u8⟩, -- 1034
  ⟨"MsgoutUbxRxmRtcmUart2", 0x2091026a, .u8⟩, -- 1036
  ⟨"MsgoutUbxRxmRtcmUsb", 0x2091026b, .u8⟩, -- 1038
  ⟨"MsgoutUbxRxmSfrbxI2c", 0x20910231, .u8⟩, -- 1040
  ⟨"MsgoutUbxRxmSfrbxSpi", 0x20910235, .u8⟩, -- 1042
  ⟨"MsgoutUbxRxmSfrbxUart1", 0x20910232, .u8⟩, -- 1044
  ⟨"MsgoutUbxRxmSfrbxUart2", 0x20910233, .u8⟩, -- 1046
  ⟨"MsgoutUbxRxmSfrbxUsb", 0x20910234, .u8⟩, -- 1048
  ⟨"MsgoutUbxTimTm2I2c", 0x20910178, .u8⟩, -- 1050
  ⟨"MsgoutUbxTimTm2Spi", 0x2091017c, .u8⟩, -- 1052
  ⟨"MsgoutUbxTimTm2Uart1", 0x20910179, .u8⟩, -- 1054
  ⟨"MsgoutUbxTimTm2Uart2", 0x2091017a, .u8⟩, -- 1056
  ⟨"MsgoutUbxTimTm2Usb", 0x2091017b, .u8⟩, -- 1058
  ⟨"MsgoutUbxTimTpI2c", 0x2091017d, .u8⟩, -- 1060
  ⟨"MsgoutUbxTimTpSpi", 0x20910181, .u8⟩, -- 1062
  ⟨"MsgoutUbxTimTpUart1", 0x2091017e, .u8⟩, -- 1064
  ⟨"MsgoutUbxTimTpUart2", 0x2091017f, .u8⟩, -- 1066
  ⟨"MsgoutUbxTimTpUsb", 0x20910180, .u8⟩, -- 1068
  ⟨"MsgoutUbxTimVrfyI2c", 0x20910092, .u8⟩, -- 1070
  ⟨"MsgoutUbxTimVrfySpi", 0x20910096, .u8⟩, -- 1072
  ⟨"MsgoutUbxTimVrfyUart1", 0x20910093, .u8⟩, -- 1074
  ⟨"MsgoutUbxTimVrfyUart2", 0x20910094, .u8⟩, -- 1076
  ⟨"MsgoutUbxTimVrfyUsb", 0x20910095, .u8⟩, -- 1078
  ⟨"SignalGpsEna", 0x1031001f, .bool⟩, -- 1081
  ⟨"SignalGpsL1caEna", 0x10310001, .bool⟩, -- 1082
  ⟨"SignalGpsL2cEna", 0x10310003, .bool⟩, -- 1083
  ⟨"SignalGalEna", 0x10310021, .bool⟩, -- 1084
  ⟨"SignalGalE1Ena", 0x10310007, .bool⟩, -- 1085
  ⟨"SignalGalE5bEna", 0x1031000a, .bool⟩, -- 1086
  ⟨"SignalBdsEna", 0x10310022, .bool⟩, -- 1087
  ⟨"SignalBdsB1Ena", 0x1031000d, .bool⟩, -- 1088
  ⟨"SignalBdsB2Ena", 0x1031000e, .bool⟩, -- 1089
  ⟨"SignalQzssEna", 0x10310024, .bool⟩, -- 1090
  ⟨"SignalQzssL1caEna", 0x10310012, .bool⟩, -- 1091
  ⟨"SignalQzssL2cEna", 0x10310015, .bool⟩, -- 1092
  ⟨"SignalGloEna", 0x10310025, .bool⟩, -- 1093
  ⟨"SignalGloL1Ena", 0x10310018, .bool⟩, -- 1094
  ⟨"SignalGLoL2Ena", 0x1031001a, .bool⟩, -- 1095
  ⟨"TpPulseDef", 0x20050023, .tpPulse⟩, -- 1098
  ⟨"TpPulseLengthDef", 0x20050030, .tpPulseLength⟩, -- 1099
  ⟨"TpAntCableDelay", 0x30050001, .i16⟩, -- 1100
  ⟨"TpPeriodTp1", 0x40050002, .u32⟩, -- 1101
  ⟨"TpPeriodLockTp1", 0x40050003, .u32⟩, -- 1102
  ⟨"TpFreqTp1", 0x40050024, .u32⟩, -- 1103
  ⟨"TpFreqLockTp1", 0x40050025, .u32⟩, -- 1104
  ⟨"TpLenTp1", 0x40050004, .u32⟩, -- 1105
  ⟨"TpLenLockTp1", 0x40050005, .u32⟩, -- 1106
  ⟨"TpTp1Ena", 0x10050007, .bool⟩, -- 1107
  ⟨"TpSyncGnssTp1", 0x10050008, .bool⟩, -- 1108
  ⟨"TpUseLockedTp1", 0x10050009, .bool⟩, -- 1109
  ⟨"TpAlignToTowTp1", 0x1005000a, .bool⟩, -- 1110
  ⟨"TpPolTp1", 0x1005000b, .bool⟩, -- 1111
  ⟨"TpTimegridTp1", 0x2005000c, .alignment⟩ ] -- 1112

end Ublox.Gen
