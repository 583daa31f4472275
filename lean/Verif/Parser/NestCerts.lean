/-!
# Certificates for the nesting of syntax trees

Generated by `tools/gen_nest.py`; checked by the kernel in `NestChecks.lean`, so nothing depends on how
they were found.
-/

namespace Cnars.Parser

/-- Per height and symbol (ten bits each): one more than the deepest nesting, 0 if there are no such trees. -/
def deepestRows : List Nat := [
  0x0,
  0x100000000000000000400000010000000400000010000000400000010000000000000000040000000004000000000000000000000000000000000000000400000000040000000000000040000000004000000000000000000000000400000000000000000000000000000000000000000000000000000000000000000000000100001000010000100000004010040000000000000000000000000000000000000000000000000000000000000000000000000000000000000000000000000000000000000000000000000000000000000000000000000010080200401004010040100401004010040100401004010040100401008020040100802008010040100401004010040100401004010040100401004010040100402004010080100401,
  0x1000030000300802008000000100c02008030080200000004030080200c02000000000000402000000040000000000000000000000000000000200000004020000000402000020000000402000000040000000008000000200000004000080300c0300c00000000000000000000000000000000000000000000000000000000100001000010000100800004010040100401004010080100401004010040100401008020040100401004010040100401004010040100401004010040100401004010040100401004010040100402004020080200802000010080200401004010040100401004010040100401004010040100401008020040100802008010040100401004010040100401004010040100401004010040100402004010080100401,
  0x10180500005008020080000001014020080500802000000040500802014020000300c0300c0200c0300c0300c04000000000000004000000000200c0300c0200c0300c0200c0200c0300c0200c0300c0000c030080300c0200c0300c0000805014050140000000000000000000c0300c0300c0300c0300c0300c0300c030080200802008020080200800004010040100401004010080100401004010040100401008020040100401004010040100401004010040100401004010040100401004010040100401004010040100402004020080200802000010080200401004010040100401004010040100401004010040100401008020040100802008010040100401004010040100401004010040100401004010040100402004010080100401,
  0x1c0000001020070000700c0300c000000101c0300c0700c03000000040700c0301c02000030140501402014050140300c0600000000000000600000000020140501402014050140201402014050140201405014080140500805014020140501400008080200802008020080200802008014050140501405014050140501405014050080200802008020080200807004010040100401004010080100401004010040100401008020040100401004010040100401004010040100401004010040100401004010040100401004010040100402004020080200802000010080200401004010040100401004010040100401004010040100401008020040100802008010040100401004010040100401004010040100401004010040100402004010080100401,
  0x240300c0302c0a0100a00c0300c0300c030280300c0a00c0300c0300c0a00c03028020000301c0701c0201c0701c0300c0902009000000000801c0701c0201c0701c0201c0701c0201c0201c0701c0201c0701c0b01c070080701c0201c0701c000080b02c0b02c0b02c0b02c0b02c0b01c0701c0701c0701c0701c0701c0701c07008020080200802008020080900401004010040100401008010040100401004010040100802004010040100401004010040100401004010040100401004010040100401004010040100401004010040200402008020080201c010080200401004010040100401004010040100401004010040100401008020040100802008010040100401004010040100401004010040100401004010040100402004010080100401,
  0x300300c030380d02c0d00c0300c0300c030340300c0d00c0300c0300c0d00c0303402028030280a028020280a0280300c0c02c0c030000000b0280a028020280a028020280a02802028020280a028020280a0280e0280a0080a028020280a028000080e0380e0380e0380e0380e0380e0280a0280a0280a0280a0280a0280a0280a008020080200802008020080c004010040100401004010080100401004010040100401008020040100401004010040100401004010040100401004010040100401004010040100401004010040100402004020080200802024010080200401004010040100401004010040100401004010040100401008020040100802008010040100401004010040100401004010040100401004010040100402004010080100401,
  0x3c0300c03044100381000c0300c0300c030400300c1000c0300c0300c1000c0304002034030340d034020340d0340300c0f0380f03c080200e0340d034020340d034020340d03402034020340d034020340d034110340d0080d034020340d034070081104411044110441104411044110340d0340d0340d0340d0340d0340d0340d008020080200802008020080f004010040100401004010080100401004010040100401008020040100401004010040100401004010040100401004010040100401004010040100401004010040100402004020080200802030010080200401004010040100401004010040100401004010040100401008020040100802008010040100401004010040100401004010040100401004010040100402004010080100401,
  0x480300c03050130441300c0300c0300c0304c0300c1300c0300c0300c1300c0304c02040030401004002040100400300c12044120480b02c110401004002040100400204010040020400204010040020401004014040100081004002040100400a00814050140501405014050140501404010040100401004010040100401004010008020080200802008020081200401004010040100401008010040100401004010040100802004010040100401004010040100401004010040100401004010040100401004010040100401004010040200402008020080203c010080200401004010040100401004010040100401004010040100401008020040100802008010040100401004010040100401004010040100401004010040100402004010080100401]

/-- Per symbol: how much deeper per entry from then on. -/
def deepestInc : Nat :=
  0xc000000000c0300c0300000000000000000c00000030000000000000030000000c0000c0000c0300c0000c0300c000000300c0300c0300c0300c0300c0000c0300c0000c0300c0000c0000c0300c0000c0300c0300c030000300c0000c0300c030000300c0300c0300c0300c0300c0300c0300c0300c0300c0300c0300c0300c03000000000000000000000000300000000000000000000000000000000000000000000000000000000000000000000000000000000000000000000000000000000000000000000000000000000000000000000000000000000c000000000000000000000000000000000000000000000000000000000000000000000000000000000000000000000000000000000000000000000000000000000000000000000000000

/-- Per nesting and symbol (ten bits each): one more than the greatest height, 0 if there are no such trees. -/
def highestRows : List Nat := [
  0x2000000000000000008000000200000008000000200000008000000200000000000000000800000000080000000000000000000000000000000000000008000000000800000000000000800000000080000000000000000000000008000000000000000000000000000000000000000000000000000000000000000000000002000020000200002000000080300c0401004010040000401004010040100401004000000100401004010040100401004010040100401004010040100401004010040100401004010040100401000010000000000000000020000000802008020080200802008020080200802008020080200802000000080200000000020080200802008020080200802008020080200802008020080200800008020000200802,
  0x200000000000100401000000020000401000010040000000800010040000400000000000080400000008000000000000000000000000000000040000000804000000080400004000000080400000008000000001000000040000000800010000000000000000000000000000000000000000000000000000000000000000140501c070140501c07010000080300c0401004010040100401004010040100401004010040100401004010040100401004010040100401004010040100401004010040100401004010040100401004010040100401004000020080200802008020080200802008020080200802008020080200802008020080200802008020080200802008020080200802008020080200802008020080200802008020080200802,
  0x902409000050000501806018090240901406018050180602409024050180601404020050180701c040180701c050140000000000000000002409024040180701c040180701c04020040180701c040180701c00018070100601c040180701c0b010050140501400000000000000000018070180701807018070180701807018070140501c070140501c07010000080300c0401004010040100401004010040100401004010040100401004010040100401004010040100401004010040100401004010040100401004010040100401004010040100401004000020080200802008020080200802008020080200802008020080200802008020080200802008020080200802008020080200802008020080200802008020080200802008020080200802,
  0x902409030050280a018060180902409028060180a01806024090240a0180601404020050180701c040180701c050140b0240b0280b02c0802409024040180701c040180701c04020040180701c040180701c08018070100601c040180701c0b010080200802008020080200802008018070180701807018070180701807018070140501c070140501c07010000080300c0401004010040100401004010040100401004010040100401004010040100401004010040100401004010040100401004010040100401004010040100401004010040100401004000020080200802008020080200802008020080200802008020080200802008020080200802008020080200802008020080200802008020080200802008020080200802008020080200802,
  0x3409024090300b0280b01806018090240902c060180b01806024090240b0180602c04038050300d034040300d034050140d0240b0340b02c0803c0f03c040300d034040300d03404038040300d034040300d034080300d0100c034040300d034110100b02c0b02c080200802008020080300d0300d0300d0300d0300d0300d0300d0140501c070140501c070100d0080300c0401004010040100401004010040100401004010040100401004010040100401004010040100401004010040100401004010040100401004010040100401004010040100401004038020080200802008020080200802008020080200802008020080200802008020080200802008020080200802008020080200802008020080200802008020080200802008020080200802,
  0x3409024090300d0401001806018090240904006018100180602409024100180603404040050380f03c040380f03c050141103c11040110440e04411044040380f03c040380f03c04040040380f03c040380f03c0e0380f0100e03c040380f03c130100e0380e0380e0380e0380e0380e0380f0380f0380f0380f0380f0380f0380f0140501c070140501c070100d0080300c0401004010040100401004010040100401004010040100401004010040100401004010040100401004010040100401004010040100401004010040100401004010040100401004038020080200802008020080200802008020080200802008020080200802008020080200802008020080200802008020080200802008020080200802008020080200802008020080200802,
  0x340902409040110481201806018090240904806018120180602409024120180604404050050481304c040481304c05014130441304c1304c1005415054040481304c040481304c04050040481304c040481304c10048130101204c040481304c17010110441104410040100401004010048130481304813048130481304813048130140501c070140501c070100d0080300c0401004010040100401004010040100401004010040100401004010040100401004010040100401004010040100401004010040100401004010040100401004010040100401004038020080200802008020080200802008020080200802008020080200802008020080200802008020080200802008020080200802008020080200802008020080200802008020080200802,
  0x440902409048130581601806018090240905806018160180602409024160180604c04058050501505404050150540501417054170581705c1405c1705c040501505404050150540405804050150540405015054140501501014054040501505419010140501405014050140501405014050150501505015050150501505015050150140501c070140501c07010110080300c0401004010040100401004010040100401004010040100401004010040100401004010040100401004010040100401004010040100401004010040100401004010040100401004048020080200802008020080200802008020080200802008020080200802008020080200802008020080200802008020080200802008020080200802008020080200802008020080200802]

/-- Per symbol: how much higher per two levels from then on. -/
def highestInc : Nat :=
  0x18000000001806018060000000000000000180000006000000000000006000000180001800018060180001806018000000601806018060180601806018000180601800018060180001800018060180001806018060180600006018000180601806000060180601806018060180601806018060180601806018060180601806018060000000000000000000000006000000000000000000000000000000000000000000000000000000000000000000000000000000000000000000000000000000000000000000000000000000000000000000000000000000018000000000000000000000000000000000000000000000000000000000000000000000000000000000000000000000000000000000000000000000000000000000000000000000000000

end Cnars.Parser
