{
 "Blake2Simd": [["Props.Target"], "C53 C54"],
 "Endian": [["Props.Target"], "C53 C54"],
 "Counters": [["Props.Counters"], "C29"],
 "Drop": [["Props.Drop", "Props.DropCells"], "C48"],
 "Oid": [["Props.Oid"], "C47"],
 "Backends": [["Props.Backends"], "C09"],
 "Sha1X86": [["Props.Backends"], "C09"],
 "Sha256X86": [["Props.Backends"], "C09"],
 "Sha1Arm": [["Props.Backends"], "C09"],
 "Sha256Arm": [["Props.Backends"], "C09"],
 "Sha512Arm": [["Props.Backends"], "C09"],
 "Sha2Riscv": [["Props.Backends"], "C09"],
 "Sha2Simd": [["Props.Backends"], "C09"],
 "Md5Loong": [["Proof.Md5Loong"], "C09 C52"],
 "Sha1Loong": [["Proof.Sha1Loong"], "C09 C52"],
 "Sha256Loong": [["Proof.Sha256Loong"], "C09 C52"],
 "Sha512Loong": [["Proof.Sha512Loong"], "C09 C52"],
 "VarCore": [["Props.Sizes", "Props.Sha2", "Props.Groestl", "Props.Blake2", "Props.Catalogue"], "C05 C06 C07 C24 C27 C35"],
 "BlockBuffer": [["Props.Streaming", "Props.Sha2", "Props.Md", "Props.Blake2", "Props.Fsb"], "C01 C02 C03 C04 C05 C07 C10 C24 C42"],
 "Sha256": [["Props.Sha2", "Props.Sizes", "Props.Extension"], "C06 C27 C57"]
}
