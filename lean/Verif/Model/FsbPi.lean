import Verif.Base.Bytes
/-
fsb/src/pi.bin (272384 bytes, `include_bytes!` at fsb/src/lib.rs:19), in 2048 rows of 133 bytes written as hexadecimal numbers, most
significant byte first (generated by tools/gen_fsbpi.py).
-/
namespace Hashes.Fsb

/-- fsb/src/pi.bin, bytes 0-17023 -/
def piRows0 : List Nat := [
  0xb9de81ae0f7fa34d50030467320e2160e8ef10f425d6f026d605cf11872d66d1288940f906b940f319214fcab47b402c9ef2dabff53dcfdd10f2de7467576b70220e9c7d38b3779ed1224e12d30df3d3dea051d4b7accab1ed4c097677b3577ed8f7f25b86e482470b3e747ac2f143e6dcd0e3f847bffae6e03353f50d9b249477a62b9d53,
  0xf1db3797fe61678fc6b2d5cc7ec0b5f20254da26b3ed2b21fd0c3800196fb174d14096fdc4e8299dd0334d51b4b93a137955524eaaf67b651e205f2bf9489474f25f704854eed6d4f92dfb774856dd75886b4c6c45922f22c0857865371539930069fa2100a0d2119220f537c9a7e4c7e3451ef23998b91b7a4084ce802b41b374149ded93,
  0x9ae51f555cfdd6be0c089bf74fece80d6186b00e064663593f6fca894381c2200c8443a2535a5c298b6c1749f534dd16d6443ce9c4492d8e08a71a9d5d36d7611a441c49fdcbb1488724bbbfbcc9ee630f75a73c61db8d4844d3c7b127c13905d7ff164606ddbeefd4e372589db4398b27473bcbd2ce7249cd3423a828d2c2d80c86c3e2dd,
  0xc29916d768bb8c4dc06ff7e0e715aee5db34e2537e40c47a71ee9aae3cd286cfb69fe8611d9da7d8b6eebe7b6be85ae5b3ba776295b96036b9559715d60fc2d63783e4cfdc9a88ca45d4ccea9f0a9678d39b0b7006cac0b72739865b00ae3077340ac525c63d5ddd01d530976985a58d0f9c53b1c90c7bb0d51194697a408dbc75422dae74,
  0x15cf2811d0252aab1cf1dde86f68506c9eed6d75ebfe42fada51dd2c7bf55dff189a73c21c2aa7d3824a6f641e9379c1ef3953455640cf9d2a599732ac480944147603027deffbd858a58a75f39a6512f03dce83d44b7e5d3c86830585b9a397bfbd6b5211411440c03356ae4b54f1211ee27e6c78cbe7b01c4ecff4f1abdcedac8d6c77d1,
  0x7d2ef3563a9b10527c2ec51c18756619776b932c2f011abd96c959e32fbf0b99bd5f750fc40c9a54d378f6dec633a5f67606d78bc7594cd529aed36bc93b2529a80792d7e040071f7104a66566c42901138aeff2305538527e67c7f9c4c0bdbb83b4dbfeafef4085b9a376eb2dbf48809e06e4cb35e5cdc685705ca3f3bc02a18196616ab4,
  0x80b61a405cefe4d902cf6ff9f87a93cd709c4ac274557126d5cd4a581af375c396a41fbb379950dd8bfe8963e0fb1d774bcfbccb7d2da2a030068a574b56d65b66f81fef324775efbdb318a121063f5e452ec7a6828daea760aa7d1aabcb19a7dc4af13df0944ac17a7cc2feb66c136f403596cd0f6d7c32e684ce137f2f742c2eacb5713c,
  0xc7e2ae4a40308e94f312c42ac778a76b6e7878c7d5203e4e0cfab3c5c4e75b684168d2c18d28dbb54652b200c9834352188171ead7160d26fe58182d26a8390620f426b05df0385220296a05c5a64de55bee221d6aaedf1b555309ec3eb358cec7761fb96b9f5dfd0f8689b8cac989ffe93c7fef608b9003eee9b2431ff4145fc8e9e7483e,
  0x7ba78c474a31ce62f1ba4a1bc1a43ed6a47041e6b52d6ea9b5ad37a5c6da542dd477361c9d26717ec2bfcd021170009039276bce544814593e2a65252dcced0893d14156203dbc8d3e957767c349bccae7b52de2554045452814b5c42c2674e11400103eaa6d680bf8db0d854a29b35a7d394ee1115bf923248554ee86332a93af69c3bd32,
  0xa62f56eeac76a6e344b1bf29aa530a085ad7241256365057d661d9078a168494eb8c9073dfb44666911302a7ce7258a174b8e456ba9333306be97548c1e61868971a96b7fb1d1ce6b0c4ad9b6db572391f205f6d4a876d6498dbbcbf36fc284931c0a6ec253dc4d3d8cec214b0387466df3cff3396ed3820e539cdc1fe75e87d2187668259,
  0x7c8b286431975d83f5482aa051444cf202ecc9493c3b5896090e0f228fbc0faca2cfe01a31abec4a7bb4e6a22bbe95e27ccb4ba8f0de6bc2cd42360a4de45309ab8bf68d769e6e3f510247b88746af078044776f13984ba6535f23e76fcb61bd744c46f60667de6654520921daaf537fcef064df360e518f824e1852039300e2994f9acce2,
  0x33e521ff699b988a0b5163466895e169ff30fe06d2da90a685646ed862bb684284c1c2d25c3744c278e08ac88a876abc44aced5c62969116b9e24897637760c5e68a2f00ef268c1e67a766e2cd116a810c65664a11d77d06827e7349420e27f1a4f06b9f6fd9d7dd74d7f26466d75c26493e115895ecf3ef46b99d589e6f7593720104650d,
  0x9a303a9da5a660fecc71250420c0aa52020ab889be58f9d7b51b1eef1355a7f8051c35b88bfa6d00376c12308be4b8e3a186f3ed4b488b369b3cbd0e9bef4e32422d7b743a0844d0607860ca2ad85e9163c9a67c1c4e9810f79101c8f4413533f07bce810d83de8fce42ad7fc3fe97b8466d01cfe8be0f40f717b73fb9d1ff1db46abe0a94,
  0x46ffdeb7e9257dacbd7830c54c8833b19fd0d5825179b766df8891ab84b333108e86db6553370394d4bc73c3037688b4336dffc599c7676e26bc86f4959cac312762988b959252579880a6a1fb43a0584ba42d491e5b1656523c7095947a4064bde2cafbc098c54463bc57d15131d653fc960eb6b61e42e132d115a7a9989bf050c7437fe8,
  0x2c377d4c1ca12bdee8085ef23b06f7f767ff28d38a7bc1c78c03bd0fa4ec0c2a6bc9c5b3178723de762658fe660a4fe699280b1513f5a9aadf41a9cb1759fc6adf52b5ce7964553aa65f471ec619941cf696ca354bbe26f9d9c096a7a78ab5fb5ccdf4309972864f5953caaf9524528a96911b4de4dee239a529218e1dd3d6d57222829a76,
  0xd1d480efb089ce7c47b166fa76d8fb04d57481eba7183faedaff3e1e643eea551a69f755de8f9673676587cb1f3e958466761c73d6bc48479166926dc3e12a34a54ba6d12493c5d24c7153f6aad8c13ba76e5aae632d970e486c739b9c024bb2df36f7b344c45ef18c8054842b2368724dcf739cd3899852813d96d08fd1fe820d2d00ccea,
  0x09cf231f86ae925bb9dc62db8d547525d9e02c3df5f7277992bf769680e02217f37dae761ed2b74608dd57d8cdeb0bcbbdcf0fed8d376694d2778957423a93202416cef355334d38b5c7c3c19f842f32ece05853d6717df1ee6158e0593cbccd4c3ecadeab62b04998d4e68b57882b235492f6641c5468ceff9c07a318a291bad86971722d,
  0xdd1509b9c4885d8d9b8199b833e05e9dbec027524cc9ef4cede75a82df586562dffcec48c885f20b28795342946cc52f51c39418019fb550a40957a984c2c03d1b3fbdd6706810ffe481e9b291198eeca811a545d3ed8e3afdca5581cba68ab05bde567645c95a2850c5f6541d35f14c508acc565343b99602af0120bdab82f6a86aea5789,
  0x7721d9865ee1fe6247b645af0f50503f6872918abd79cdadf3c99b7749aaac193add6ccf4ffa2de16024c554524c6d52bd9caa22f6ad744b6dd2403c13988749d9423abbd917312d2e4abe16a602f293c6e8be4959de2735d5589d050c738929d247f8c121d9cb5228be2bb9eb680a8f508c4e7083a3c97e1f72d10d6f118efe766f192c48,
  0x4268074271ba88addd1bfa9d884f5e1f98214ed14e2feb1d21cb7d824fe351668b004bf94c46521be4999a4cadece74446aeaed04434c06c0ba365622bdaa39bf20d6d553fee0538a1247cd1f1d9bd60aced159bf29b5bdb42c5dadbf09367b723b6123aff79c7cfe3467c0310d6b210217efdcf6d825eb51b33fdad221d13e38b278c4f05,
  0x1dfd49a41415cbc0037b8195894b3d4a04bfa6422177a84b37523117e9dfc51dce51204efe3b40bfde5df23291a11b1b39db34b8c7c8c81307531ec0267e508ec1e5116d3f391653411b521691553367f21fbf9294a07eea915942bb05ca1da3a63fe1fd04f3b2d29d469cfcb365c73191ee2292923c6558c0bd8d372abd63668f4912e8f7,
  0x3031673509576464de599ebb5699e36cc3ee8b558f54e86b7911fa9162ddf33bc3dc688ec25041191010958f05d13816b502def00d8fbdf33e3dcf15da27042155f1abca60ef11dbb5f5f353b081698162cddbf6b1b631d08a1f331423f8dfc178eedfe58791ea0018554351c9647f979c54514879339a0d5770a426bfd535d6b649dc94bb,
  0x71aea5df70d33c83bf0223a9141a13d7765685e90c9ebfda8e80d4ec456df05dc2ecad9fbbcebe6b3dc15e7fbee558aaa57601613fdacded9adbb29337fc6cca9d5041a5cae853980e8948ea47f8e5fd2a6bb666944262fcdf9f42bf8470f4e3ceb018905da4f4487653c8f468183304d3a9ef6de9b54e2ecf298798da62449aa858ca467e,
  0x5da5d165eb74894a3d8cc440deefbc7642e07af9a5f23890331b289b7002f8220d5265ebe35c8687e41df99fa7a0539b89f8d891881ca083247acf59db3704dff163211430249a781f683c5e18a7471434e3ab706bd057237fcc225ebce75fc3207475ad961b572f3a852e2723559863cb34d924de0f5d65df33c7aa5129947cd79d055256,
  0xf2abcc71eba7c9d1fa88c1c22e47dcaff81af9f041921aa1049947d6e3a9069e21c3e01f4163235dfe7881eab25c9106932710e084f163cc5aa689a3e033c1d35b506e1ea6d001d0d5a87c5ca31c104e442e499323cc5b274335340b9742afed3e44f70f7ae57cbefa72100bc2474f0dc4bc2c9817b291f2701d3599c34ee2d305c23e7697,
  0x3bfa698ad142d0cb054298e7efebcd88d3e9d5fb6e5633287d0c09b0ea978592980c6dc8b9e36ba5cbe4e543e04108dced8f53250d8a54b1ef1149b1925766b7219442d59daa0b7251fddfeaf9e4b63b86b87e37cd07dd29631c795ec06c1397a501ced9b22567ca17cc4acec335c8c5e940296b27eaa4515c55c3c58f771bf25891ed1c2b,
  0xebcb6cf69462fd398ef4e8b0a0b4a966c90b4b98288a1aaf3e5327d84f211029ca5aa43a06ec0824965df1eaa6cd579211dfaa9a0d5297701bf05631ece6e7c9821d69bbb7c2bb4e3186f28e14570a76437ddc6f9dd876be2e4d91f7824728721c6c6dadbe59b510ae9ac25a659d3d29d31b53de1c6dc46317b1ade638238203dbd3ce96d1,
  0xeb9ae3be736a232cca441bdee912f04fd2b22b497472446fdf10ac2248715cfe08db36e86c365f6835635d3692a2eaa41ff69b788cdf2237ba44948a9ac9ee32375198748d33179f7d4c36af8cd13867f132e939b9797c45d5e0062c557a1cde6df7337ae2a631741b43978c22f6f540d3b81dee380b1f0bd218bc778558a08e95a0b5efe1,
  0x7d48fd2909c483d7b5e0cb6dda0bcef125c88b6ce10234b0a6c2eae72183c8175328259f58aabdb0f8ab98a7aa4713bc26fbf750ae14153a451e886b37c6477ba70a621b306a9686da9de929530f9ace6db4805e7b298374903089540473308dde4cc7b2c153ebc60a1ed275877fda1066437aaf8951c65c445b4da73b81a85521d7706789,
  0xdbb1f60e5a5b18248801a5698d1fc1e27ee6c286116dbe159318949fe3564983a4f0dcb441561844bf4ed737da20d7bf3aacdb5655e5a5fb8939559fe66e23d83bc8fb7649c7bbaf399c410f41f9b3ffff927e3cd13503e6c4486f1bdd029062d68a73e49f853c88cfe6a9887338fa65210b084dc9d017e976c8968cf7a6d3ab3b4abe3f9c,
  0x445b7ac8b3967303cbc1ca7a6dbe191460f3052fcc0a8d3e3cdfd514913ae5414708466e835da7937684e18cf8a7e41a68005ae8ca4c1f12381d4adb3a8af342349e97dc9877d42dfe02babde5199b11d4129ef53f70623b97c794d29cde6695220967465b8e5fdd9cd540b09ff6bd52e6f92fb4af714e24ae173f04c49d61ce29ca599f92,
  0xb62eee4726abfd34322d4892aab7c77d8c8ca2bb350f967e0cfe048144f6e842903a32c4f49fa08a7804c73d6abaef433668a3496d56b45c1ddc1d384aa1d31baf2f80afb420159199e71ec25607fe82d65808148ed2333d4d1c5db4e29a8dca82eb829d162a54445fffdbc5085a3c0a5209a2964ae265d65518af7034869037dbec0ad517,
  0x8b085b5293356a4e730f568854fc0b40f42a5f110905984eb9de3798379916cfe72df93cb10aecaf31b9a1e2c3b830ee92776da9a1106df24379f6122c2cc456a5af72449c96a6a60df83ec7c7275609ce73220a27a5832e0c6bbdacffcb7fc4484e38b96a9dbff61656cf0f3cce165523fc9fe990b75abacd3fb2c6e138c685c30ad9aae4,
  0x0dd2503ab02be589a98b1a8a7a655e274ba2a50075368d8cec27ca9edcbd807dc74cc139944ad4f98d0ea9f392e05a2a3d102df1ac2c5a95aa6cb5e9660cd48b51e475af3d38f31e0a717d37e16db8a85b74f13e71e8322ea32217c8a4e4546dd919f5639bc5c26eabdffef29e319caab7a789fd9660ce165170e255567753d3efe8985138,
  0xd2eb542329e4b3b8af5db6848ff7d21482e2ad22442810ee0689343fae5fa1dcf7cc53d10e512b14861a0a1b28a29beb74e2bc9cf9cf54901729dd0daca94f41cdf9dadafb91fddac8b2a26647ef0ef90fafaa48eba88898e08f5b32be8a9ff912ad0d03846d1d2c691f6dae090bc6400a8379ad74a13156d1a9f250a34185a2b47c3a4783,
  0x33889c3202dcec748aa201376825a476659e3ba1bf90b9de4fbdf7fd2dbc901eb9be1b92243ddc257a5ae529fa89e0e815fd6d817b62d90749571a92e926637ca0c714d4a452a8e6e52c7c47088fbfc0c8d68004d2bd7be223b406af86a073c20a66caa68a605181d6503627fe7404c3d39f3e2bd475ea72016ef68f4025d89db41a4c55c4,
  0xf70d572df6f38036e1e5dcd59241110666b7a81f82a811b990a2bf1dfcb3955944092f004f42c59a65efad697d565a0dde3a9b39d7d8d01129ffd9d4226609bddfd3b600122dcce3b66f3696b45867d8e9e4901a01988601eeb5ef761398f065b99c2968954580891b7ab19d3d304512352e724b6c236c0d334e1def2c5214860992dd1cf0,
  0x1273033345693cba805c5dc582621a730f76256b0ad7992a55bc17a945fbc15a4b99302ec4023cd223edc9d6cae9f0a1368bcc4cb199b8b8df0dfba9af9f8e35e2bcf777c67e962346f1a6cd4474dbdb5be0bf1282b3aa01da213e5cb12a07a31d1713cec66ed73868c855a80cb9fbcd7e9fe9bade0917b4e32c28a34200942e9771fa9dda,
  0x3c12a0f6b07c305f1d5f1fce112efb0a59110561b1d4cfe55b4e788c1a3f5557fe9d0d4c4df9c13cce5a0bda3ded779cfe006aa3c2e0134fb02bb2a0962daf52d29adefeef8db1d11f849e991cd69bee7633274d6d00b93973c48f9c06b2df138ca4c1c109331c657e31efd326764b21dc6534d8510b1a57d3264b1bbbadbbd206e15d03cb,
  0xcdb14292d0394c68b3eedf1d19e32199ca4b7e9e02eebe8dd27db646cda7231d42410f2459f87b93d1d099083a9ea279f6951e8d7b280c7b4568203b1e39e9d845de897f41ec7c65703cafe231ac8d15b86ada2cba27879b5551837fd80aefce5cec0a6ad27d0916b8c14b764bbe28fafdcbc32e3e07dc07c694644b450213b290cd3db227,
  0xe6869c7a5e67ee80d248dea05bef7913fa7a2ae54fc758f0a6f2cb0f6de5db9c31cfd85036caf31cc6e2e015b730a979fb21d68f4c22651ac46b740d3677b394cf53836fb4a4f89303b47e1f913acffa72d3bef313467797a6ebcf00233c5360d338386907d93a76656028313cd7057d3d2cae5807ddef80422aabe308c6ecaa3958728bb1,
  0xe6622ca1899aff457b5d87d057f749f5c4c90da0940f16e406843fefdcdc35442442db2877762b7b02fa4267fa7b238ecb88ffdd9304cf8f47a4cfd17d38ce4d78ac05ec1ec0bd3941ed894c0fc3a362990dcca0808b31bdd76b49c8f3561d94b7fff2989245f2a32a463a406c24b00c3bb932518c20b484ac8220501764ca29bc54e18b41,
  0xaf9bf90d4822cf152a183815ffe7550add880d1738c3d8440d364633f55562709e067bffe1fe95ad85c6448505e55195020836bd9e34a5f0187fa2f9c65966f4e636f2a5dfe98f6822157c6f83738ba15aecfd1e0f0fe40c71c54abf736555643065d91f3382d42bedbf1cd8cb11ead9ed446c7522612f1350401774131da4dedb5b40ede4,
  0x5d6949771b83c449fcb59e57818cb8decf43fe8597c27cd852cf8284e62accd73b0574977c34c7c72baff4f703dc735fc53410615ea412334d581fbc109782d148262b12c1d8ec631a7ea652ec519733d62ae8bad3944761c48336d9b42253f9170939f4fde4332862245db09afac41284f0ef8e3b7e497400519ea317d8f61313f99b318e,
  0xe74ef6018c7388054a977a0d18108b271edf0e97f94cbfb84d5008cdb12db57a18b44b847370bf093d7b9860bd9c12d0c49e0daf78c453b4e0c4142c6ec765d10a3e780bc7407a2faf3e8c65228322de2b9257cd924bc182987f897547e1c73f082f768001cef097a9438ee0ad1280b4528a80eeb4e16c11fb36bcedeac595b60455e40620,
  0x320a74bd2fef57b94aaa5406e8727dd0d181bdeaba65202a9f8338b7ccd297e4364139d8fc443736bfb24e80a4966cb0a8d18ef2f84a8a48cd1315bcfdf054eac3ed71d7bef8017e620eef3f111848450389966747f570db9916ac07451aff280454f116f5ab28909794b0420bae9a5df59491a90f2e5c924e53bc1633933bf0b3d811ec50,
  0xe3c3121bd78c827e154b4966fd041dcf77ecac85836242dbc2e73ce4f72fe7fa3ad9d3896594dd290a69a78f0bd3b3f9efac6bad5dc81c85c149bb543a6d792119646f4bf990230f40187f737fa89b5ca8008e32ed532b155de16427fc7a85470f00bc351b4becf332d6c76ebc62cb7ac489a3a46964708c4eef1c980eec89ee769a41919b,
  0x2cc05bc8a2d189217c201653bc2076e7c64abc3c04afeb4c515a8a549748485d84160178d03b52f9704d0fdcdc92f11c73f36dcb353b5f9252b093d7c3bae460e4232fbf4752354a8bcad1efda9e5a8b5648a7d4cf49f5b26fc067c8f7dbce647b553e516477f21fb9433b4a2e2bf23297510e7de325e3c4c38447d9af35741a1c54fccb68,
  0x22aa09b83cfa0f8aa8f3789817e12d44ee2c05b22bfa18d193b62bf576c409d5c24ee86685f7e7fe78c7c9c8fec7f3e9bbec12cfad7367a1f233bc12d2dfb87503f4074230b0b13eaec5c195aae340ef641c406ffb634598f73e89e0eb19fbaef92fdc533a2b1d904f7fd9dba2721e15884c840f175cd8d746713123430acd5fc5d4f3b725,
  0x2c74ee3823151c740b5d970c1ec564a7db5a30d50e25f5f6fb549dee154b8dea3508f7ca0ae291eb236c7f78885d376298db5af7598db07855aa92145951153bddc75cf081b67d40787be137ae62f9d374e9fe7982ca590971b8b33bd4bd63f57c295c77dfef873b55f2f7c5c5a1a2d9869fcd364d2ae5e43f631d5bbc7af10ee671f3cecd,
  0x9cc294cdff97547ab5ba1145d7b787d02b97f16212fca500504dbd907292a8620d9cde1e677f4b59ee4e57def4a164e6d3cd1425e22515e391cdb2eb3c9fd0028cf94f9e26c2a88f9b110eaeb857acd0f031b35376be6786b2ea45411f5c444d9b6ac8fc41a4aeec512fbfe42d4fee03aaf681f3728d6ee0657a5752c435ec877062daa06d,
  0x68ecf81790823f5dc27ab7c47a1c543e433f1095892f95d4ec7205dccac85bf5f01069335f08f0c551579e629923c3e1ddf2cae93b74a455f9d5235ba6c8e4e0fab00eb005e175bd5df6ca437c8fbf97d27db12a0691a6ae464b886b5b15773f72a277ce9f653b37d84ce179213b7ca512335382a2ea59ea452726d958996ad13f866d3bdd,
  0xc9647fc60259231dfc1f3631f925d3b1f6ed85442162121cdbe255db940eb9cb32e85a29ded741fb67d7c0cc80e4ef499fd4761a8a34ed0e17adea4f83a544066b77e85ad8df6bfe2c34220f76f910154b988eec4631f56c0a828efb396732e80e873370d136358ed05713916d8a722946503871a6cbefa547b9209445abd43b60ae2f6597,
  0x36a3ce02603d78dbd34120a332b3c44698a9572976d54ed6eaa20f8f33db154b38bd695d63f529be3b9a1d72783dcc907f9732a0f39faec66619849c381312a64383230a1fac07a0b404bf4682b412971d15c87ec5dd68077fb2e6a6d6a1653043610954b5075cd188254445704070526af29dc01023913d20ace9ab0a8d5e23e51d516344,
  0x0e1ae6aeddb319e08310f7450f6d95732b94590c2c40543ca5c62e566a4e0e7649e87c72d15655c56c676daf8b4f924b2fdcd3af0f707556014e0137bed3de2f7a13084f378c8bd370da0626e2e15f6175b49c4abee808c3222bf14ee926b0f2f88ee7b2362594b97f2c0e68cf77705419cbf32d2688650ce7d08f3afe2457af4533a2addd,
  0xc8a6df65ed2bab47c141d2cd67956c5b7a09b89363fe87b5484c4e07df8e05c363c5d8abb0aa1d7747abe27e7fc43bdfc7ccbce519f4fca854d7f033938c704f02b48759f1434be965477c9046397b4e7a78cce9ed10325486f0b2fc9688feb577f06f8c31f60ccae7099d1849d80a8f0d60f9f56d0107ea51cac665fd6f4a36b051ad1e6e,
  0x5fefb4728ad44849e3004483f558f101fa4ab75603adbd970385087360d6460541a0ffeb32f3066a79cd02d21b22c9c0ec0c0b767c9ec4a1eaaa300e08af94fe6a6ecaa5316c79a1ac08601d038f3378fbee4b459a061c71883e7677918c7478bb136966c68a4513582a194c1cf867562a6eb19eff41730352af94603de73376a63c049916,
  0x966a752528a459ace20ebef5e853237a133829a9e9282f2eebe3f9b53ee7e408f331d7acc7e1683f3436021a35a4a0b026438830cfc0d011b1a96fabd04de0fafd3d142536b95701e62574a7c02a660ca50087794e96caff03412c17b447b109378136caf62fba31d70f15c2dc4829ed27b31c6954f8c47f4a69635824a2467ffe97a1e9b2,
  0x709589bc438a408fce58eceba4a06a29ad9397af60cd749c40268528818d0f27c29a39f03317e23f949687e2da3997fef52996e6ce4f61481cc6a1f016cb23719802a77b058bab605cd861bb5a9dd001e7e835a4059a59ba6a0c2151f8c49a1641776b90f736f737df3e17ddffee09e8af2a1732eefd29bfd832d6f3a751b3adccff8ddbe2,
  0xd97af2daa0fd6e2811796b7d51ca1149b6e81bb44b77cfe9d8bdf184088ca2e7cfb64832211ba8af46353b0a67447c5c7828ce7749e5c5718094eb3be80cb6a9546cab572fe3f1f8efab0afb6a76e99de8ede717a60578f6244906d926c10d962b0a0e74668fc25b09099c2e8d50681f0590b7e89d266741cd96da7d86ce1b6fd66739cc7d,
  0x4ac504f821336a7fccda434c9253e213d220655e75007a118171ea21fe35d849f57fc14bd74289655901dd291f75ec6f5fded0d13ca8ef75db82fdae3f7ef8e1430cb2211d930ae6ee18e9eb59fe030b67fa0090873ecdf4bed417e050e42c33c9625fc94f191ab23fbe4a126e9f5e2ea1062b1a7529f6df688b31cfcc761ac5804445f2d2,
  0x1171ce91c0b937464ed09e75ff5442991d51b451f3f855f8d930dddd7a4f74e2cee87d7a23a1f6e70b56d08fa009ea7b1595b3cbe6b9bdd37b66c7cae9c4be2bacefed283db37ee22c32454a1a2aab5bedce43bc01279e92fe1b2b9a5b0d1364d47d1c6e4c2010b162f1a9b349d772fc309d1be52ef3b42d5abe2d8413391d43a2e280a29b,
  0xe26aea40f267b97f6575dc321be72f0359c3d8b8fe6eae08fb1427458ac1adba09399085a37e13690b2091b030b202f56bcf544f3eafabf0387ad3f2a3097e70832dce7f437b0452079e3ad5d9a5e9fe9727816797b5229dbdf4660c7ffd41111c54f6602917c94c4128da816ccfb48915ad860a2dd1e500c106d0b56b0fe3d261d802ff3e,
  0xbec5a9d9b628d2f6f3e1f3d826b97fdc8b144e66cbedd2991c9762a798d168d043871147f5d973be19563b35f9a65b2f91b7f667ebb4819aba5d3de6a3d1d73f936faa72993a82ad1255b9471b0645ff05db0e15716da5ec66cd9b8a139419ec8b81231805e0c0ca6e23c2da5b3e7b0513c47c1d914c85c25a5622dd806dbefca998f2ac06,
  0x96dddfebf9c67df8c1a5a6eeb7a0d0023f7a317556cb998177e8007e659be3c895f483c27e08688d9d755a71752b4e4c685702b3c4eec1bf617ce7b5ee92a24b2fef7772fac1a9e42f792f1158731719f4ba55fd8030ff9024680e82addcbf8e6f3af6621ce4a6d7a486559ae7b00cb3d05f2759aa7ea4e37744ac7b63c86d15341d8afa8f,
  0x83566a3a9786061411e09fc6f44975b95469a0dc91f2693c9a02465dbfc1c389ab59594a936d6a00ad93269b3ffe247419359bdb411b7d318ecc53808a69aeece00ea1adf5c3336fc84f186b83213b7ddbb7f20bf1f063ec389c1d5de399a77b187d1dc187616cb827e959c2e02b25329aaada86c80359dfcb829e216eaa38c3b5150c1194,
  0xfaed27571dc31ffe1137ca4a8692a5c96761fa90d78726dcc325023e028499ec02ff03d4c505bbcc1b16e413ccfdd6fa6f7dadae457a6033dfa34c08ed8b0ab2241474a5737c3ff222fb1bb8c9baffa4f1007d15ba26c285c8a18d91389e347ec9a0f3a1ca4f54fc1cb1005b537359d19d17dc670023a7c24207db4d77365afa1a195894de,
  0xf8d6178314ef24c21cb2167dc0d2bb3c953333381e9e642c1eea12bd3ceb7b6d35c6e77ce14a30d8291ac8f490c2509bfe1096fc5e9f1bfad9209d69dc80893e0dfb6bacd7dd39babddc7853daa4d8c00aac0db653943432aea24d68009e9e9e3381b1a586aca941cfaeae51802138d77991f6abb36a7d971fb77922b74b19aded3583ae79,
  0x4bf682f8b00a4a6e018973b701651ce8238eb75443e04d9a343fb49d6e8529b30410f7bd212d5a3d7e43fada6981e435613b3411ddf2b10e79f61489272ada8f21e92936c987d5730e5716cc29c33be8754d0757504c541115123c8bd7556b8ddd72a8745751007c3c97a9210195e96557f1bc2310e923d0d955834842e9542e345a35ca0e,
  0xd2828681299bd29b5e2677136bfece5ecc7517ad848725239a624012f62bc9e553d935d50ace7f98d54464fd3b3a1bbd5cce7aa3a716cf5fe499b5109e601eabf556344c3b3bc3c66b2db476062ad7579b927e656e52193fb03e7ca914132b033db1b351f827c9127cf82c6fd43397fb98e1658127d4c8238bba12c986e8d777ca2c0d4ac9,
  0x0726e8195a4db5fc044da34a9bfd9531d97ba1150f0827bdeb95e912ffc458241300cd57c02e4d48c01b3be0ae42d29c7eb8ae42b6074480dcaf93bff4d2e782656f3ba34af167d87485a89470d6fdeac9e01d60e550179c3259c2bfecbc23c893000679b7d7289cc74cb9f67d419e08b7a71eb004c582d3516934a3fd128b8be08a9d8f33,
  0x3518586fd023441e86545b62e8951b73d0de6c1198ffaa7845938c0c9a630ec4efa45e084e61c59c1131005e62bd901ba7970a1ff3b60499d05371dc07c78fbcfb995ee96a018c2153ac0ec86b3d79c5ca7ebfa94292729e3ad55f5c5d96192b08c4c4955f3418a6d855460f946ab53932450871b0c3409d1df4f5350321c393558c6f3056,
  0x852dd4c09dfbd287ec7938b1afa7fe20dd8cca907216dc75046d187c857e563c2144a353a1d8abe1ad76781cdbf0d1329da604555879d257b0e5e4c9aefa7c1eeeed05ec917036c41ba5ce3b87378fc24f04d64c6529a487fbaf382f857df8123c26e7154ec368f293d645077d85bca3a5603a4450c7d2ffa1f2bc20fd0aadf7c5cace5d95,
  0x7a92243554c8d27ecaaff10c63d10e47ff1e0748d7e9261850437849a32f227aa8591c8c1cbd4bcce2f45f41527d3f6113055fa8212a5a2f145439ee327fecf01a431d8c8bb202d5686cc5152c50c2b3a569793892ecf7bb9cbed8183096bc6d14cc861471821a2908db607b2b14839ccdebac5d81b3ad1ce3353addcf7fa8728a179e499e,
  0x6b4d3d827b76cfc9f5eba214cceed915566c803cbc4b7304e44ad2ce90b7f97ebac2849acf17c6e1c48e80fe80d6415d846dd232abed4f9cf15ebface704da079d6ca1aa666250d68ed9e6b32facee5d915205a37380fec3646fca8a5df7d55555669a6350f789a11c6e4736ee585be56e1f9b4639b65ed41946ec48d33976c4ff2faa8b27,
  0x3837093bfc49d1cb751a5a96523666a7e36c49066fc5fed6448231aa7526635005dc0ec8cb3e5fbe0c11bf139aec84f2ad7480882efbbfb83b1fdafeafa9cb7fdd1e1d79bf14c0e68a704451cc99ac99dca03379239b9e9a2a9ac46c6169fb83e794ec31da4ec0b8b322dc3b933e4232306967733e3680ffe15485128db8ba6e05327156e0,
  0xfae0bcc8b4988bdd979b01c3309e1a8069a4f6eb7f0356e04dd0ed78cf14ff4773b1709dfe4ebc98bbe7982e643ef4f0bbd7deedd59fe16cf53f01175d9efd5e3a2fd02af3f1e8ea6f497e6a88a24d8fb22398a4791c8d9991b1062850b010f12b9d2ad638f0f4c37049cf01f65cd72097b7bcfc6f8f4951f35eda5cb0855cb841f64dfdf8,
  0x160f5405aa4187ec220f3c0d809ffaee15ffecf7cafd6453a3edb76b225b51e721956ebf2df929bca2e295c6d585166540eeb91309a3ba22a84afc30b451c6341a119242552bbd48aa14f8462c477306b364515952a575c2b38e65117bec77855752c17159d6d38bad2b5db0f8873f9676be3e899bb02f7ae3db50b30838e9ef72e75e8e60,
  0xdd52f54076b391ef1f9d8123198f1f1db44fad92660e8f9944343d7e52839ae25cc1dc4786d69d02106e66fb459f2921d07c53d26dded2ce9914e7641469d56a76b0039e58560dd86bc42946b547e47c8995a783e79d07da6f8a762177e14207f3faed4711f90b117c97960aff74c449846955781f1ac538fa94458f23a39c95d72d376db1,
  0x7632d0753e9c52e4a28fe30d4cefc1d58626a88282d0af416de7d2380084143e1489f44187117f425f75f46737ccdf5d232526566121ebb168eaf5c207c9c9f1e5338fca12de1eff53d0483414884409eddbf9563fe9160c77a31d1d6a7b3878dc090c83a80f32ab60a948600f1b941648af7a2a775bb7aa7482512edb53c1028e67573736,
  0x5ee44c352e19cf5ff97d5d40a17d5d065495db0defbfa7e8398edf00d512960b83139596fb90e8102c728761c36ae43a536e61c9b2f90bf66eae823528521bef0a430f214c4d8ee36d7aedfea5ddc15fa6e2f845d438ea70b2da783dc74eb362369812f8cbae7da6b6290f0f575307a346ba4610dcf640b50e12b512585b49a8330b2057b6,
  0xf53c220214c3cdd4cd1aa7c5e9aca29daa64c8dad821035ce669defc701bdcbfe07848ae40fe6466a1359f7a0124a2286e8b916daff94edb441ac176c1bf6fce4e9a8a5827a80956dcc4f8eafd578a59ad9c6aac20d1daf8afa68a14865be4f9f4631a3a4e4d4b5a28253c619415ba31d421fc671e0b4068c7ead8ed3b3d523e9536ca1770,
  0x9ef6ffa80febf5fb257e3394a48f0f41344cfee38d8c632c5e23e065ee645ef1b0a7978d0dc4935370a9a40727a3d91783f933aa94fd1552aec18e126d5bc5cb958077feae8915716bc512e2543aeca1a064d2c7e6a9c5d4d9f3f18cfcdf23bb23e54047d9456852c6cd78ff52e800adb779cde9dd89edc8d1994aa909fc6d1f520469b6ba,
  0x39f6c2294025b598a820cdec972df78ff7ec2580380ed021337ad89928ca4a55d2f7907c33d4ac3d0fe6fecc88e56eed1d301df433f322f73180a1dd86e796a228e0725f90f336e3950669185dd88bb7a69db770a0a48d17dfbd6a21115b1e07ffb85c5fc1bfabfc241ccc80180308db7c89309771aeee0a25652c868128a4b3ee278fae90,
  0xf9ca112359b10b90ec118f63e817c7b64c2d11d8c7a9a3fda012b4e971f0126f052bb17f50dab088c333b2beb654e4da10ff671ab66b0627b517e21d56a643f4283b1b708d2f7916332eb1cc759ed83051b3a63e624262d672c6eebd8971c370d9faf2c56c4543936899e1e97573e0e1acd061fa846155c60efd8d0485592f2707da4fb093,
  0x7433e513212e948e61a8f493112e11b0222729e6b57c66b5e587d426dd7a86ac7717b862c91922d983a6a4ddac5ef87b4d9d284ee48c12e54c15b9cb7489ed62e68f78a266e86cbec2cf4a3ea8699e1d5fa83a5ab05592c2d237af4b2904fc4266c71633eb12da23cdb1088d822871d03ca06a399233c4c7a37424dd4104f42a9d1f4c4831,
  0xbba6b0a46898982b550663c17288fbd11af8e42104a36d07260244f67bb1f12e7e1680348bd7b9237b4ac5dd2e38ff79ab73c9b6b32f4f817c195ee7165711fd24144fdabf13cc95263050cce48b8bda383b587f9a71037ea007c48b872632a15d6b7cdde70183e1d03cdd606a01fc5a2a7bb7e61a5d0785b0c5ad24755bd7a6042b1306d3,
  0xd9096d7316a2766468cbb4a62878448f927b1818988cc4a8666aee82a1a636654cb747d880688e42d44ade6ca295b37d6274191bcfcf01063754560d2530d1acecb309622214f554cd0ff134fd33929877ef76a7da15ae8ee56df4da8334664c9183954b26a4dabbd03e325a41815662722df408fa8d953b87d21b9a91ff70d7fb2641cda9,
  0x67b2a8a38474160e704561a9a97738a620bbad9d4e09698d6812e916fa47e069df0dc211491dab2b802d58fee64aa4d5031990ecd68ef7c1d6cc77d67fb00603554ae1b5660982f29a9f9915e0166b41ed04dd179050ec2f6b94ef04c40c697988bde73ab82df0c8126f050b3ee08506b11adc0d33d3b53f44eddc3e56310e36fe47ef8e10,
  0xae92479ea120b7586482fc944db83c8ddd919de4cf3e19f1dc386836b9008ed9ac7ce6427c518756b9690cefbc25c4992e449f9ba163e03f8a71cd13b8f7e8959c39dcb69b12e46a3dfd3c985b4be84867b7cc68bfe7dd9ad1efb9fe829141e97f951d94037583cd2564d36e00a296ece533f28c7b2b6afa8fc62a8645673a1fd07ff75601,
  0x5a2470f5b2e7277081590fa9f2a33b39f3abb467b96d490667c87210b20faf6e61d21d22cdbcbe427271c953ea409aaf1db60200985aa0cafe3224181029800e40cdf6c78c724be982247f9ef39c64fcb443355de0f64c1914129f3a14f0635794643d53adbd22857cc4573b9749b939a4bac1811c9ac494f31ac73cd8da94286ecd37a664,
  0x9d06286d2b05c567c5202138738399f389213c33e611729363430c8db53ee3ef990a38148a6f886eb51b01822a6c1d737c0a3d66ebdbd0c56e8f43194309961571feefee7a100bf62ff0f8a5ac9093b86ecf4f50b1dfcadb3f3a037ff76e6f81081970a800ee52a47b4b707b7149455144e9d2492a36ecc62064cb1d3e6e33b1b88f926f4d,
  0x27ffcf3e8ec6a080786f769422e753c019c3ca2aa506f1b1ffa90d70cfb218211519c86b1052364d911a8efce54948338bae8a864b0bb54b58185161b892d7119dccd435844284d0aa08e9a110d53da5f3f9e8741cd1788b8a9db781c72f1ab271adb9a7a4691d2401c104cdb178676dc5cea01c2e354f085482b3518a4edd7c4ebd540840,
  0x008e57cdf4e25bdcfd2dc28527a96d29c956157668511a8d30e3367cae08e570d3d9bdeff9183925004fadfa54f487fa09818c9c6adfaed8ccd89b0eab7946b5728647dd9ab337c90a62a963383794c1213e5d1dfa2b34440bb0b35f47b600e8a3a7070900a91e8b0dd722dd8f9c6263213adf981a2ed755e39be08b9ed7c4f6f416c040e2,
  0xfe166a219c36339d7975d0d2c260ab5d012d9b9bea0b1184e2c547bf123a86c46e4b22f1966e5e3951f74c5b497d1dc1299fd599d7148cb300dfbd66e853ce6edd0a6d046fef5cb8c856e39d2e7291bb733001f374680d6b4f6642dccf3be595e465e3ebddb5f6d035d3813b4a2f71441f3f8b3e03509fb1af0018153456cfd96955c7be9e,
  0x2568b9cb1e0d8036d4e08ccbd212cc631a22dcee32e6c4f4fb1c1c90b5aedd0e162b6c8e832efe7d99407b1b31cead67a4e031c2dcd5110de3b230e02147560e9c484c0d82da02a594c53921e12c350f9eaf1975a57e2da9f6f3bf373e1afa0bf4a8cc891005d7d69289d0349a458284d0e27b708ab8c4813783c711b6a00db86ae127cb48,
  0x126191e5c237371a717eb428ea2cab8bac56c814d50f6580c8f37b94d55b41d358af26523e86f2323602d4ae1399b5cc29fb36639bb62e5aeeb5d34daadc8b6a3c194a765761c556b8e7250799b1c76d0d7aac1b73be0293e2d7192b3d816a4137b5d655ac7ecff15a67c5fa34100c2c739126b4c4af21b0874ff58338b53d053aeab46f8e,
  0x108208b06be61dd3e4b38f8d32647da85d232d532a9f43aeca7bfe88dfe092447827cac79eff2586995d5901b820792bc2d35b9e926f071ddfda4a1f970bb1ab6b003062ccfd7e103f189558f1ef54235e640951207710525867e76ef3c53e13bfad89e1add285b34437a2ad00be3a014f4f05fcc9ca921ccb14c0e34811797956539bea7f,
  0xa6c32174448722882ee753227459220a36f3b69ac7206e29324d2b394da906a5b9954bf8ce8742ef55040d9207e0bdb6162a4dbf8b4170d1cf402545dde8c24a4bc1679c271e6bea4e7e73bb9821e439bb71953a44a84970d2b2adbb9d374fbe8afccd8710247a4302745087489cc0554c618d1c8b5f398c3981dd4f8379ce817b633f1e7f,
  0xf6ba7b57372a710b1a5578e6fd7e58fd6c28f8bc0581e52338aeb12eb45ac9fce570855425682fe1e17e364196a2c4c16baff02411d5de61855d1cb9bcd507902da61685ee01212020c90c3dbcd516701d8922158a6a08bbbadd1d2f51d13aa23317cea68ff9f3166980f695c574be8bdb75cfbc1cd1c92aeeeb66ba481b7db607911e6a24,
  0x762abdfbcbf1da12059cc2caa954b4905b29b53bf0780eb6e58f22dff8d2419cc6eb5e8e8d2b97364f591763215c113087346688442a1476aa4f9265a845cbfffce42aaa8fa1d52885976bde9c4549d7c97a952ce80d4b75ccaee8fc98b86b97786ed6027ab53d0d2340749ecb583b81032f9ae85d7e2e3c5c4bcae2f4ed3e44c9beb826b2,
  0x2e31943da87c8bd2a60dd8561dd8a48355f00b09cd57a67212091eb8ea32ee69b5faf6687ae70b4a220bf6d27b21ed5d1923839c9501874982ca636e67d01e06939886efd4fa05e20c415d6c9b9784b4bb2cf5a0961186ecba874552f15bc92544a130d971a2825e1fae4b7f8ca36f585d26abf19bf31b4c1203a67a034d2097021ff1fbc0,
  0x2607f4f494e8b39c4ee13dd5dcf7a2d5eb20a1026abae157951c6e6a0847a55e9e23d6afd1f2bb5c0260b7c6efa4c2478dcf4ac328b52249e30a7bb993c17c342f891c1041217ae8483e2cf828d641f2aaa436390702b17bafa35baa9ef97fb4ec90f94dec22b792b7e89ab48cb47068a329379d55a0970f99f13cdb63b7813ebc9ebff01d,
  0x4d44e9004b92e7a534675fb439143b894aa25ea5bcb1ebda44b0073757751d5cebff2ba09f4e6124247e0d92e2417cf458ec8fd768803fdf19817539ec3df78fbb526dddfb0fbb48da85e49d6a6ea90f4ecab3780a7488cb26b3e9fe7279a526fb2782a28f5a670c5a2a33897b5433c2c591b82ee7deefb191557d7225c081a05a32fb3109,
  0xb15256ef2a704f50cd61aa35d3b93921ea8befc0f9a4492c50d79e2d7653323ee28fc7c65641eb66dd0079279af7944305f9d45d9794b06fee2efe841c8790dee540640d3c2e638ae820d1615aaa85203db67ddedc287287234e641585d141fbb75ac3665721465303c8347befddd87bd1d1e9e0cf97b76727417a4b22686bdd3290e9b422,
  0xb2edabb256d4fcb8a5a1fdad7b80f6f0d821ec4af9d90a50e8eb704bb069f05ace2c2a6d5d0b7ea059173c623576f4c75cff615bf1fbb23f15f5944b68df08f5fbb5e51c07c3db23aa9dfa7eb07530d8060e4ab3b1df04f3a3afd190e4768d4ab81cd728d2ef6b2efe9011de8dd79a700c07694aa71637419d87ff60a8712cdc4d81332005,
  0xd0a16d65bbcfb8e36a8f62c84d5528986c07b5f074b6848066adc317e8cea6ca20ccd2e2be4236f4f8daad800954f88475f02d046b7e3d810e7fa544975d53de9ec93bc9480d8bb132a3487ee07c09f65ed98a0dcbc2babaf55c12dca6fd57eb1579bc2a91d6a19f3a61df637b20bb9ca7cf82088f8534a6eb2580b7ad42114cb6c4f8f1f5,
  0x548e719964a39fd0c6bd5a65072a6e06d8d3e60bade0ee3b63ae57ae11d192af644a9df9d32281c2ef67039c61445d3a93b6f63b01fb441666a8b2f2643201dbe7deb08bc4cab5ad0a298fed06cc967e982a4f5e17208700362a21fd7578aaf0cb4496f853bc4b1867644d49a079594a1d45682c4573dd058334bd36b4eb38db4bc72d7a6b,
  0xde4bc1f73139de135de04051a5b57615789987e00dda4369dd20db8f9ef1eaeba935878703fe259a44fadc381cfb36dfdd179d69af4dd540cd3d9c7fa612dd7a8f854896594e9091dadc98031db0bb11d3a2c6beec0ec88bcd59de0a0b675ea75c7b15a17d403b3311d9a95361800ed6a465db2bbb8f3cb94b6d57bf7f5e9796c5f1de2116,
  0x9f5c75d70e4f0c57ae24fd043bbee6374471ef76ccc96e6e05f9e42fdf40b2040514cb6e30f359a30a71047c4b952b59a046b31ab12f3de2b2c679bde396a723481b718abf1fcf93716add9abecfe8f4eb8456e94990fa6239e3e747feebcdbe0479693594c37f332c2654908229511140e037b784175cbe86ed05b72080854d2f31f821d7,
  0xeebe0c5060fc19fa2a12af3e58eb3bd3a2dae0361fe5315b0054a9be531d6e26e5fc3c5b1b351587e44b4a06b26a739f54ba56db7209986cc9bf2d15c61fd0f2e362b5110c1ceff2949028ebd247dae5a0c20618e065da3f54fde1cdc426f013177455606bba9b697dddaf19900d21f21403e5ec9411a401b067e01614a871a65e51d6f211,
  0xb89fd85fa8b9aad57e18b766c91f55e62005950a6fd279196d7425e62a290b411d78c3b3b5580396b6009492ce6c0361e52c2e75b229258a11d580692c4c7787a597d1526312ba21dfc6aa47086d25a447a42e2c8383e843c7062249d03dca09ff4313e6ee9bec9bb45d1d141f5798cd13db68c26070b4168d13db6bfb6a754859459ec212,
  0x54d18ccd412c7558fba411bf90738215b01dc2955551d1c7939af2eadc34730980abed333f3034d97569f72657c2230ef66506582838ac17b7d00ff7867bb1cff5cfd939dbe2b23e50c4bf3066298fe5512aba08801f02ee9bf7e8ade9dcfef3672db9d8419adf39361bd07a964b7c8362105d1ca789aa14f5dc1c8ab4d2a981a39fc6bbae,
  0xace3baa86d5169ae0071dd1bfbcecb066a61874bccd3bc12e5e5b14c7fa02e633f30e1d71344f06a239fca2b395037fcc46940b3e0fe19e78ba545fc82d6a436f886405d44b651fa8c5fa9a27367a0ebcc2443962dfcb4376a68eac76d407db7e99a1500e56c310acbb13fd389944a3958b364fba2d16e7c9e35ccc16c2bafdf0740a93214,
  0x403f9a0202b62173e88634f9cc05a2e403153e2675112655a7490fe2a6020450f441cdb90c8d163086a209fbf20c5dcb2378b6348ebf83d04ce11cea0c3799b1f6a3ee9ad283cf175be3ca57572ff8821f45df2283e1173a2d0f30257300d923c714621640b49d967eec738b3e9befd0aa25bd532c62e0807d9fd01c2d509ed6af26a7180c,
  0xd488ca7a4d833bb89455adda77b9806f1de3fb399a6a3838dac0e7e620f2b61e09752f4b96f63a770c6e53ec3c5e270056741c63ff3553802477a90152845802e239629579c990f9ca2bbb1ac08114627a57ee515f98ef9e932c09784a53f7e613d2e92f948a6ad6d65ec4a8782828074aa843d5abe8723f9d72ad9e142e5104d1f38a35d6,
  0x29977680e8457fe860c5cceb04f9b815fa0c698ce1debcde06ce014b746cedb0f4979b9544486538131dd9b7a75760d06dc1bee22f3ce5110212ff5819f77fe86f807fda1a288ae9603d3024800a524c738f0756a7d668839df8a4225f75577a24ed30e90773eedb239c6dccb290a2fdc11e41cb7d9dc5fc0def5c49fcc3ad780ae27971a5,
  0xb05fe21a69b08db108728178e89bd148a87739b6e9d93e0bb9622cef3f4bf9465ff1802d1fa133ed3c8515ce043cc35a7259128702565f60f1063bfefbcdf253a5d3c0f082e660c1a729d114ce456898fdbd4b407f801cbd0edf11c8e5bde4efe28c04f2c76fb959d4cabc3b71f36d5dfe2d6fcc14559625c4e032a640fb79a49373f3838e,
  0x703d1ddf23c7bc91d67617c1bc185c70b36e50f9ca758a13cb2c21011b53892cb0613dd8741971a823e494d6448e5b0f09569d48af3901aa3e8b5748898894afd887f9358e9be7698f67e645abb538565b2cc991550fb14120cf1e9e8280e6687ba1cc4d2ab4a9711fec79256aa758157f7dab0cf852da7cf62ea3441c91ebf5759d6615a9,
  0xa1c46931b792f1b5e6dad1b6d10e5c2af4b51c121bede7e0a1e78de6cffb10ae983267630711d2b41c312b1bf01c964cd099887c5c45cc6fe4ef0db1c160214b5ff5f80b2d8ddea7bee9e2bb479032a506d776f8c2f5cbe196ba77c129da2b3e6e2a5c4603b3ebe3ab7c3ed6c9bfeb7599f5611aec9603a624913ada5763e174a2f846f876,
  0x1b74da2ad64d476b849edce60657e9db3c89a32ae5b0846dadd8173bfc8967f300789c72c11d39456f5e0c1dfeb07aeb27c5e35cedcb5e237f675c7368a652d9e31f2eda1ba98a4e3ac87da3e657857ee196f8872a16d62cd37aa42c94d252b600d0bb978e8021acc65dbf42b5d1c4d96b4c2660d7907029a81d78ad8f83ee3c20c73b564c,
  0xb3b3bb6276890526389b37e648aef4c2a9bf5a8fff39f6a64deada63941820c426720bb571fb6a87d7a326eb7f4f17371b2f8f763fc160b300a0b68d524d98d0ad53673c806bf9828615ac36579a6a2340dfc9ef2e48f09a294e073b33826eebf207601884bc5c96b5a4e4336467186ea72c397061ca99106b5ef24038e9596dbfe116a140,
  0x2186fe1d98d18e40a2b5139e892ee8c1da0d8631253115da7c085de0c83c21d7ea2e7f52ae159ed72ed6e9fcf1ba581427fbb754d6e6733dd9879216a9ea10cef3f4695ad77c779f015dae029e403d4adf6518d41eb180e2ca14b33052d89e00476c083435074e62819f15e7d37fe19704e5263374e10bb95602d8f8c91329df172b449842,
  0x2dc64a0d3f3d79aaa1322cf1ee079a66e2d0a8214c97376d15784797873ccb1c603259b163048ff4e50c881940692c32813bce3047615afb3648c28fdf58fddb1483bf42fff3d6130cfd6cc4917a4b8f04005805cb99a1aebe002a4716bfc8bdf62897e1dc004cedcabd644e42ab8a4bca74c8e2b54f2900a43ee6fdaed8110112d74f2f9f,
  0x8fabddc85822103ad120764d1248aa6d837a313f15536c456a901595b55bcbe6c68c93ebbba89da35f7c72801f883ef5508188fcf8833e620c330a0b4ed5e07e86f2f76ca0058498a5c2ba63f381cdacaa0e43575f064fe7e06a61fd21ccac129c5df32ac4ff4bffa2d3c3a1e7e8cee878089db3ad9085b2f8a897589453cbd453b6d58bea,
  0x09b8d33e3fcceabd999e4020b38d6823c7ae0327dfd022ab712c070c7d76b47bb7712aa69ca5e488187d9b1faf2d8a23fd7df31978e960efdfe2f70e591d5adf27eb92585902fca34c6fcf7a9b155a2ef5b2c2bf5f410c738e760efaf4abe3567b274427089655b1b134b7e392c6c3bfb2586e225ad3721221ae91f8493803a61c407910a4,
  0x1b874a1656776660268896a8c63955f3d249a0e42d29439c2654b2c9d2aef7af615c2dd38ea3799f78f5424850f5c9d9fefc2cbb67549f897753971bbba666418b8a0b5aceb5464fba1df2d2fbc9d7db57bfe7a6f13918212acabc64931fa546b223c478e73b93eb407bedc3655bc931fe4884c928ae42996bc6c5694e1e517d478cacaf77,
  0x3a797f20c0f5985e52097650351425aad75c893abd2c6c52481c01841c4e97359dbfb964b68573f54d704ce25ccab25b5b5bca39998866f9ec6ee36fe7b47c4ed57eee2fcab8e1b629e740bb94045132b86fb86b20bb1324906bef20314490275be3733aff14541f7ddc0d7e400fc88e2469a81b69f9ef9f6ccc40f385a29bb802119e8d6d]

/-- fsb/src/pi.bin, bytes 17024-34047 -/
def piRows1 : List Nat := [
  0x7c67a2dee4d4782e3209235b520adba43493849ebc3d3a2388f7f17acb81644900f2ae5558b804b6f38b1259d2d328442863c9d8b605263e23b0b5c789197f19d8b9bad5355ded781cb040c97af42be176f5133ab820cd1700e502b7212b8bd78da2bf04ef30e777f7d5342d0b4970829e0279ae84c3d712c57fc2c7435d73f64a3e466b43,
  0x64211f29b959b3b2e29eb2534252a37ff36e70921f24b0010caf4be8053fd328643a1e895f25f370f255410f46f7459e9f50a4e988b87ded917e2a5544e2942c83db0577d46560bfda61ff16ef41c3d48ab3207c7558690844768bcb16836ea5e60140c3faaf86c6f55b7e3ede020cc9ce63d1fb87a45f0d33eb87f84609c8f65e8b9f8215,
  0xa0aa5d021266d7a00b08ee90ee890a6d0bb1611eb290f78996603f4178ec0ac8af756a1c52e36baa8eb036128406151def273d8d24c90baa0b269084bf91497b914abc38bb7194fd2c3655177426cb37879aa0b9105fbc504e2c700ae5bd86afc8c45cef692398806e1ee7a99043f595c7d17d722812c026aab1b5e07897d735d72807ba34,
  0x1a4174f5219050e948aa06686d9ed858499e95a8499a3923e074f4049b23083140848aba067fedddfa9442ae5eae594261316da87b698be2131ede271af3b1c543735ebd0e3957887a49d957cc0c8463f8b9d20c0c7e80397d0d4702ad5641f7c3f6f83b137346dc89e9cfa289b30ab379a7853bb6a06967330b2f77fdeac92baaead063a8,
  0xfdac947cf7ddf0835157364f62a4f2065d8ac0d6741835394fc08bfea4309c55fc7770d4a005a228d5de5dae45946675c3decca4b034ac4f5a83dbe6b39621f1f47c80c541d54297e020a6b48a41433a1bbd8132c07e9679b12dfcddbf35f954ed10cc1dbaeaf8a2abe23211355e4843cf4c5d99245b2424ce253d4ea6b0db8804bf16d18d,
  0x091ad81e0130878a23e587edb628867634523363fec771fa8ba873184d62c54668c7f6cc58c27ca0611a5e0f7a3c9be7bea3402aeae97a348d4b34d150a105e0c85719f8b4a9a16bfea11cbe9ce552901965525df3670d62b33eb5c74109dedcd2dae5b4629dfd5246631e3a2a777eb60e8ac5f0efa14abf3b3769442bc8682fe79e2ce3c8,
  0x7a108fea5027b3dc1f480ad35c332bf41262118d19ad6aee3b36cc1b68b1929a89a9491150b48c18a293069b5e320a2da13e592e510a88d39e9b07daac253df61f17c84c71967b4d54a296513d2067ae230102243bf851494bf23136c2c44b731c06dbe9a8bbb16a42005fcb65392b2ae1875ecc5c7260bdb56059ceaa3250d535241b54a4,
  0x7cc772cbf1b68802eef74ea904ef7ddee06dcb9170a9b6020d8e0c354a70b054d7ff4042425a167a380ec15b1eed5014e9641589984a244d1b4e3a33009e1d9910fcce1a0370d09d8ce0340f57480f38844e9f8daebe3cb01f4732c063e9daa01f852853c395517ba1a3d2ee8314a44548f8594d335cafa6713cfbcde0b45c965bee8742b5,
  0x8cb6d4e87b23704bb8a2a445bd151db020293b5bba86b82b4718f550aaf8c562a535e973329a4f4923297c43b4901711c0f1e7e6cd94d7ff7e71f4901f91f3a2a0ae5f730b2f842a52fda3200b54dacc2bea36fccfa1513b6102706fb528fec6a56f353c6cdae73d2d4b44ad01ab24a8e0fa59eaa0863b89c886007da58620bf40ea5b1a77,
  0xe1a6a5a1e77c71f63df987daeaabd8c15d45b5f149b20a8c2e7319b74562e655def83ecfe2e363308ad30ae6326262ba4661ee9ce0ab8a34d8e04919606f574b2a1af27751644a3a9ee01cbbeabdfb56e1af5d7e358a577823a7afe4874f7b8213b1e5110d37ef56a91bc2439bf6bbdbfb7f6fe29a03e7ac03da29367a5cdec324f5974036,
  0x11007d291e723b94547759f26f30a9c935e0783881cb2b9696bdadff0311ca48788210873bcd75b066e963caef01bc1584766165205119b87ef333ee05d8cdc418c1782c6fc94c4ce593e4aa8fa2ccaf07087779149745895b2ba4b366ef5e62f48d0af25b922d00b2a612283cf1f891f68df010a93d769f9115730bda79bb85eee84b4f2c,
  0x08d9ae9b8ccff47b41ebeb53869910c1ea32b7142c228d30869a06b3cefefcffdbc6a7ba15fd1a644aa6def8e2dc52e9868a4bcebbc429344dd0da044477a4305c4424dca927c3284ca6800174adebe5c6de2b095341490f2891256a25910cabdd2abef8d206953b0356fca885ca74e69b4e040f60ac1c09f2f6d95b459ff492982899941b,
  0xe467c1a4946d4f81da8dff2883f10dfbac295a315d029ea6115e4b5929783fc62969a8ea37306c894f0448b19cb79a1ca2cc4aeb47ba9ca3f8239d84a11272df98d69b0ff89a8888d84a15315334de3ce423161fdc0a03c313700fd266b881fc2ef4f814768d706b42c61ce0e0a31b955f5f2dc33d62a26b3fc06c81235fbae7b044b4c073,
  0x73d77ff2754e3ba0a53261407203c2d1224bc45266aa5e0a15b767055bf8ea89ef17833bfdd740890fc4d7ae98d8d28a78e5724301641ddeda615cc6cdc356ffadc8cba04f32569fcf9c58ae774720c25b4679196a7f975b4cb6dc9d6b4def2d4bbc7bcfe364ee941d1fc31947423ae3758183c01e1fcdd8341d8182b29b1ad70659853445,
  0xcb754bb8a4149a42f1a4f64ec1065e7c72881ae90cd90c8eed19a86a685a4e997cca4b5343a8d0edd19eed2cc131cfed465107fed5d02d4a23609ecf5e5cdd8518cb988c0aa7c70b4c24110651fe7e3b0e1d73e528613985e6951332b4737fc29466a2549c97ae49c4832f6378eff00885944be111964bfdf6b205ebb29538dc7c8fd5d4d8,
  0x6049b6222f00dad6634971287032b46dbde750253a6b94abaf4d27f0c672517373d25ef25993bc7919da6695f58b4e2cf2d6f24079327fc7fd33b378e84b0a627c523d43c7dc23b600c71e519ba90f9a1fd2f1d322f8bc762616397f3e33844ff09668f1e9e3946ed5fa9f519ebd4c4a4acd7736c8c83837194c5b6ffd8214deaa11b5b762,
  0x2ec4f72fd0851bfd425e08b86210f10b6c1d32108933c2c383486cd8a0f0d95505b33e62baed7383f7385ab710af3752db256bf686f5b64214fbf06e49324f4f5996a04ce0bca0946a7b96229c19a4fa4bc821258b73d8541b86ddcd550638bcde849700b68e17eb8542e5243b97c7d726a292c51395a48a8ebcd58bedbd30744986fb428f,
  0x732fcfb6cd9e46cf67f4e9e0fb5bab0d620cf6651d72338fbcd5b4f362016e6a882cd6216df51f23440c22557c9b4d36bab1b2f1caaf95890eb9a8f0552d8b6f57ac405c10ecfd7fdf1cf5c476508f595c7bd11366fa9c614a4d4bd5c1284f40d416eec92e72f252a3f4e13a767915bfdd2b98dc68bf6f0f0843992a1a2eac19870320fd3d,
  0xa3f103dfeb6ed4e5fd652494c2c4837d9fdc6e1409cbbc2db3ae8e2a1eacd33a0fcbb98a6417dab94fbbbfd501d1dcf32b5ee9f2920a62c2e443c6f72feb784fff441613ce5cce77d604514cd3678d002d1fec109b5062afd2b8351ad81fad633aac6e7c5aab0a890d94e79570c2136806c2630bac22ffc6fa50dc815808f6908cb160d486,
  0xcf58712c9abc95118ff517317f64fb4610a210c7280f77fbba7c26470f69f847fc9c6944ee95d2ba172681318dc8e6e54371703028d5eacfde76071256846bb550eb3c4183d2cfd66e8f6e6a3b607d500efb335aaf312abc9512722d068c01eb80ae8e90f89786c274af43a6d9bd168274d0e558d2fb95861d6e9e2480a01b3e1a693ef3d3,
  0xe60a5365039a9609eef597e174a09b684f46b9efa9c3c6519675a09e7e40e8df2d19406696fb1a7e56ddd8e46c8583f8478b9814ba2f7ebf4352db6776cef99ea13a4aceaa825ba420b96b23bb9ed31b8c3bde613fc9309e714277505f13dd94def1e0017201e9b8ad5e8813f64aabaa8bcd832bbdb9c2ad5f5982637c2fabab9d9b7e7164,
  0x6f4f508c415363ca4a185f1ac6dd4ac0cc8ce194a79e7dee9cb19a6150fe8e92f692e8c1953fc60c7ecbe19a9100d21038a1827d03b950e3a43a82c8fcf7c020ace3291f8a73ad8cefccb8b4f220c38cfffc32560375c65ad760c95ca292032a66624cfcbf060ee01f39830982e3be789e9c004767f6ff36786fdcdd4098ba1e285f357cce,
  0x4452fd92b52fce5fa7c949d05cb4856caa90c5afb86db01d5864b55e353d094f5292811fdc187b1fbc80ec7042963294c8f7d2d5b8c0b6eebcf0fd8d0915d7f96fb950fb739f6a039aa022c9471b0e0d9995059088d12f9bce1a4e826a0c94b2d77e01bc21e88e2c82df80ad1377a0a530c28e72334a5641696644eeed9b28f78e15188f65,
  0xfeaba8a35b73c4c9b80ee307a12c4bbddf094e3ea07e99f3b7dd0a1c5d2bf175d624cbb9b28e905e86b273320d23e9fc7f98da90631bafad9a15147daa804219fb9f86f3abc4d473c48ce8d5ce4aabc84c5fec09e817c42df1a64ebc783f913b98b398ae61c1af45f6532c0a513dc475b70ac1fd628f698c3c7473a8c2516eb938badfebae,
  0x16f9348bedb1d597d65fbacf249a899d3ff50665c18e71b992ede4e5d9f82333eb58463047861e0bb3ab6794fc48646249e5808d9744699b084423d4810e61f59ff99701daf69572078062884d55ddf5fb3e962b50f5f20a5c297d980dd4c7300b486fd31e3bfe3804cee7c1569a666da4c55d467bce9d6f6379b74a9b0d622c781a029233,
  0xc1e09ed07a41be0d6dd890482e8ba28a2fb48b5f65d408016eaf015a7e6e80d406f4fc758bef3a146a1bab6082e8f0f204a8b87dcca507bdb3af1b88c6b8ba0a50b6f6de1435356d96876dea1e5e19110653cb176b8d906bc37f785543f18fab206953c3717314ad6ab8f69605512e110bfc256871c8702e34e9517830968fbb5c5bed99c5,
  0xbfd944802b9f028603e34399d4dff7c102d6fe1b4dca71eba2b04b6f5a112ebf23e17d92e5b9503b6f9f2560a518731d86d0bbfa54344d9ddcb573174206900629d54ac6df9cfb76eaf8ed1a9fffc4090afc9c9d1afd0940d8b1ce6872f9c1c74fc2e442abb1990f498cbd9afb839f076257dfd0faf21af0436013c397b4ebc7bdf940f640,
  0x64c8ee6b0d52b85bddbc2c2b64e11da240627b16912f2c0d87bc0f8f21fd906a4e716394617a7c783ba48cb843ebbc34c3b7d6177b788e4ddb2970db952edf64a0dda683158e082c89f952d8c098767addc50b86f474e1de0092c2089152a8f5f8f493b2031fd07b9ce7ee58d453e88cded726cbbba1cc60bd4af250723a261483c3e4d61c,
  0xc110c4ce24975bb2ef0f27809168cdc35ed956df8302d2b13696d559c8a36d53209a30e70b65fc12a454eaaa4a98db19850b655c9d22cc801cbd5b50f1edeab18381823d9581c17510e1c5af87258e8faf1370d5c8d8885ec36269b1ce8e77d55955ff9023ee98897428c1cbb0b7d7a7dc53f8bbf2bd8f8b52d0eea808d290e3876a2627cd,
  0x5dcab74b9a9bfdbc1bd22ca43fede383bfeace46e3e82025423d3d16eed973ecc790cf5d2bdb1718a985328bf410af7262b1c89e89e7159294478ad89601e9435f32862178ffa2b20ba4aab8121e373abbb6116b6f268b42175f32777102cb5c7b16ef6d4de37edae3e6c676cd55bffd4238606d1d837876ddd8e9b638ef7ff4f2e4665b6f,
  0xc37be4c34ef627665d0ef9f45a18b355634c25919f8535db4dc050f3b921f3a48d58a8825716ff67d90cba295a8d5c006d98b8a46ad95acd9344f8d124bb6e538801dbf0c9850e0fc96ce14212243951a1c0756887187417fa6ddcaa7c314865e2396565685a380e78eeaf7878475f6dd4768572c7ad83f622a5a2dd8e053f991dd8fff046,
  0x7d3e22f4e6c1fd7eb99cbddb2e20cffca2c2c9cdbaee21d9e120064e75305ed49564d423bc5cc6d0d48b672c0a0c8f73ae7db331335bb02d644a4b56e7a56e6dc4f119dbaf28a3bc3acb6299cd9b828b16ad9a48d5852fd868765a4e7c00e17a2ab9e1f8a1d661d4c0fb9d793fab4f23ea113803325da8efac12b2d8fe3df72734e311e7ac,
  0xcacea2ac44686849aab6d2bd36d433604a6703a271255932a9ecf2c0d14833d94a8a88264364c76f18d60955ca91471d5689ba8a195790dad20b251ddb912d2778d815cff78bc42ef5374096cd2d2abb5ba2d7b080be797fe90c610d43ef7d61be586bf6c3c1f2e80a2b5e88dd5481aef10b1ef0a36f785f4bd7daaacb93534594796e8603,
  0x48be491cdc52578af02eeff93fa23c4a3648ed9402dfe948d4313b17635717b3e562d1a4a4094ceedf486c7bb113e4fa069a1ef6d6f047c9bbd0de474776145bd66b3c58e8858e7c466378addd561ca37e1924f82979398c766dbeac68ff24510fe3b954053af14cb967c04a30d0c03c33348eb5dba8429acbee8169d4faf0eb95dfbd1037,
  0xf12c7626fc72e7475a10ed11f24f52eaac1072328d39951a89f09a5ec628aaf641fcb83c5ed955ca1bb951b6e57eda7901afa23ebc5cdca87f4f04d99c345563834e8200253b8f44bfc2ea88a3c32347332097f925fcbecd9ba402678b27da508f0379e4a18576a7b2fc90a34fdc10051db63c762594a5d201018d24f4d413fe01c2dd75a6,
  0xefe9c47fb347f309b4c63134dc8af393d68ac00060f1ac67628dff12b4eb93954883bb33871fc3a642f69b9804ff0b5029ae5761e0eb79bd3359b39a206998b0bd40dfccab9f94be20e2a72085d218f408d90c28e8fce163ef5fd224a32dffcfdbaf76ea5a84f3c03148e13203002fe8d7f102a852373b3b1937af99bdb53e93615abcc156,
  0x521f0c60bec8af44ef5e0a9190857790598ccea7c81eb931879fec6a91d1098a08da13d5a1a7d4c43644f8ddf8d3f634a4ca68d0c02608d940d7218095dc18cf9a7b15dfde72627f34fb86588128372584fec3d65eeee1c21059b08ea4c9c740939a224a9405e760b65e9807e8505dfbf19eb8502a21139911b0108dd2da3f31d704316e85,
  0xe52e4d64fd662d7346b1342a8b48077f8d7d35915a06f15ec411422485abfc55274f9d6e719791bbf6836f5290f2b0cb01fdc3f84b7fdf0492c0c10c8407ee667beee43faf76c1322c33e7a16b20925edcfe54a679830101bc3efe28d9c7f59077afe5f5702dcbf8506a8b0923bd09f7abe2a3d8ce2886046976cdf38e0212012cfe0cfe3f,
  0xe2088e6d747b3a2a031b844025af7175c3caa4389d0dfa3c2b9339801182ca895ad8a5d9375f616aa5111300c007c29b1575461b56ef9adfa465bc97f4bbf8e5ab339fab6f78f19355b9568efa2e1e180647b00d0c22d007f8d2bcf8e8573db7eeea4395ed407bda3da90576779ce2d4dea0ebc65e40d2508eeb75f241b5189c384be28432,
  0x21d5cb2cc0d7b24cccc51b565aafe5ab792bf7a503afd8fc552868287a71c2c0acd95f1384f7d7e30c23c2c0b1cc9dbd3f772d4a8432ecea3380c05152143382b2053aa868baa4d08f2a4e951bb7773ed78078bacc3b94fc5f601b6008338828debb5bbaffdf45712b1f7ce589d9ead3d312cb20e8d57b9b7c733aef24ead3e1bbc3ff7ca4,
  0x44281b1067568b98ec68827ebb4d1eb852fc5c5538809554d3b5b25aaf9f142ff28d3932b23d100012efc6f1ffde24b91d68ef6c074cee189c4992cf83dbaeafc3f508a1bb4f1edd2bae8e4629fcd72a41e1038173cadbd88662788a9319e02488e48cf474b98d6bf0648d26ff498de4f256ef5ed887cefce170da38849da609e3b9b88583,
  0xaf4d715ba703ae048c8d16b3cde552133d831f2ea4217da78ea9c99426b4e1940026f7fd296d2a2ee87d1620c808770a69a2555fef0257fb0dcc027a85f8451f7e3fcfc1475d5680977ece29f608ecf3aa481bdd731d185175512a3d2971041069e1f5b7922135c19ea530a3a468f2da8b86c60b40be0d214f17045515d973694d745d7369,
  0x6799ef99edcd7e84b2cafad2aa9bf63172c411aa4a7d1275277c4e8fd5b4f8986c241b7e9eeb89744b8cb941860a0a8e829df0ca05da20902232f94b6ff33aa15827138321e3a6488bbe5d64d0e0ecefc9754749766d851c80be5722f69cf61f18015fb5a442bfa785f3efd6325e471529083587ebbc27a4ed0234108efaf3c3a2ad6142cd,
  0xa9cc3b22066e0a663bb791aeba0e8cc14c7882a96830f5c13fe24158fc7e66ca6c7056df8b023c4629e7b274fd6ac5d67dcd6c56ee1075826053c6a37b244f65680f4f27097dcb000da331807d69cb8396aefe95f054120dfadcb0a2b66e514c20cac5b1dccda3971314447faf03893fab5a7c9f3f1e570fbe86f6bf0b20a2c407fd15c9cc,
  0x1ff6394d1e98c9ed60826794c9aaa24843580c7ae4d0a22875531586102f27c17cbf3cadcf18a1d46eff599629e48fa4c8bdbee49c76201efceb3407e5c450bbac1c23aad4e53bd62be4d180fd5e5e80c7e2cfdeb0fd7d0064427b3f96273ca4c31a00eeaa87423252f43904f6fae68f377a612b19ffd53a6ebe1c7532994552a55f45f10c,
  0x4094c6920a6c6237d6008574d9ef461b0a5f9371dd6f5a30b8cd6da023e436042485f710c6aced57c71834d05a6f2830aa845d6e98167e2fe5e9930283c1bee722f81afd481fbce23a92b9b4f2b13961096a7ab82a01559f6d7164d19c163aab02dc480923983c21b635a428a53de8ab7bb43486c7a7df4ca32f66848ed9bb8107a2c1a32c,
  0xe31e692cba0b36872485f20294f1ac13e707e9861f0a7e6f37e959dfbd1c797b3afbc52cc13acde1d0e3a6c89ee40be58e222a3f50371d0030aa77264ba9d3c88fbe4abeae7bb34eb6c83260e8803a20fffb51723642b8b05b6fcdb88d885f9a9e26ac2bafb4bc0e998d84b72f06c0d1fd03df0ca6a03af860f2715a34386b82b1d6321a79,
  0x57c1e8855acf896857336e3c0fcc7ccf1d9e6950fa0302221570a7e110c50fcc9f9ad51aaa5ed9504852b56d0ba60ea584342f1d4122b180ef4328337d8e075282d413a91d9ada57d9da662ce656f3a85f37cc475b3e678a648e65a6a77b2840d319ba7ec05d67d0a9697eec811a92b46a92cc9cc96e6ec3c59548cf3ff723b140ba7b3bf2,
  0xf2647728cf15c2578745d24f11c235ad005d854ad27897fd16f3705e18f8588f727af018e9c3ac59557570845f96ffac4264fb5d75966a528c13e866ab3a363b5a8742fc41d6574750355eae1fc85aa593ac4a18be79c3004dfec9b14d8be080d62902b453cfa6d68ee2d79a6f5834cf5f9d7df0b1fbb5c85fbdb567f8cb0158affcfad635,
  0x753f7d3a28faebfe3de049606412ec284e3bd9dc8f54c4efa8411c34d7e4ae02ec1b57cf9cd0cf9b215a832ea0719f3e9db1be0e822fa09f72b50ba9b9b2f1d7a7e20d37f3de44b9119b0cdb5a1c68c12907a464b7e31bb742ac7aa1af190a80981dd39f50eb69d425e717b6d66f91a570568d2eb8ec2d8d598a951b536fe010555bae3658,
  0xcfc1fad63683cc467cbb13ea93b6e7c98b5a01a0b9ac01bc2ef971346268e150401a8b789aafd7de51537cf010d041aa3dd8c8615e03ffd93272f64ffaff770799a4179d08daa8846b779257a3bff5bdffde874fed7f8d8ef17bc15faf675dae5e82d0a8d0bfb5e0d8bcfe076725aaf9377f3898edfa65af8850d7437508f53068c4bf9741,
  0x645188ab30f970873ec286a546ecfabaad21a2d6277d9945a265cbe5851e05a6fd29d2e749f1f86f8395bbed9f55b1934156bd10699933990dbf4707a3f24726b5fe85f7b2a41b82ddb4d9496b158b426fec622cffc530ae039e2edc7389df3205bc9d785923d125282ce0a02838ae6a84db89f58cf598929b2581f22fa1ec779d4e17e0f3,
  0xbc7951f3bcfacdd233e0b725e80f61b4442df961d367cdcaa8ed1465d4bac764b8bfcbff1d2c8caf5958d1b33a3212fa6fe025e6db87e248723b17cdfeaa375bc4b9fc42511c6578ff8fb161f7ba0b358a332dffab487102095a7e58274181efbf4acaf2efb2742770f12336de9158beb7063755926b7bbcee7d3a7483c47be9982c9fc35c,
  0xe95a0c3cfc2b98c62ac978032439f27c4012dc980deddbe68c63711412add8a71c216bd03a795e72b48803d4c516b2a2d82c968ef8319884fe7e59e7deee59127ced0a737ba11651ae1fe9b0b1427bee61f717cece21f9b0924bc6aa3b055061ac797ceee2caf6ff0e19b14874dcf9a18ef96a04fb5efc2c0f2cec034e0a0d1c7c60fedc2f,
  0xae7c7362390bc04727331bccd29938c96122e3541e31f4586f284726184b7226c87ea2b5d7adb0bfb352bef5aac60d7f0ac5aab6569801f850bb39ca83b4ed3a507a93261649364b017a1f061e2f3f0ed537a67d1c0f6b982b42340e9706a661a61bf0f6f8e41c670ae7996da968949ee1fe13f62d8f925b97e8b4fb27d36a99c63251bf6c,
  0x84b4292e1d03df5e223d9cb69e440dad425112160ef2a7f84fced3c40f6f0a5e78aa02a8d3c46d27b1a5511e4acf00973ede761b05cfd9f4ffcbd13a8af8c51da06729a34ab8dee1704a617ca6fd3e6daf6f3ac927b7ab05618f58869f7df47eeb044e280852cf71ceb27ab04fbbe24df90df7261338c59932cb9669c3a3ba5ff8198edca2,
  0x1fc3b7333c86b910f4e711c82429f218fe6e8bf47ea153e7a6710b803c3002a79362ade9120b1581a4d4f57eb02deda226f0dbfb7663ce50099d6456488e38e4e7fe979e7953ceacab9fddb42330895d2ee41cb14dd3ae380e67ce3218f8127ed4d4e9ad6cbcc7888f34a16f92694b2825e55403dbf47dc11e0d04228c259d6e966d858a3d,
  0x6bf19a8a263f0ed2f767d20bf832eaab3d13836edf7ff986677d434fef36fefde063a75c64e02929a39931657b3aeaba224099125795493e07db49dab8e3f09db1914b03a470cbc45ba479a6dac71dba570a70520a13420c1744fdd37b9bf4e7984334e2ba3ce0cc30cd5c3f40af8ceecbb4d1dba0cd8031e294e2cc7299052b9a1cc7fdb4,
  0x42eedf34d5abbdd492573e661583138f944961e8feca31801513347fadbee5de30457ae5772bc30be4865918671b12fdd151a60ef76438dc4b49923066fdba5ae3c8ce4da56ff3beba3a6b84dd69d2f28caf263807237a2eedea705e563038947f565934b0da9c2376618f390ebfa0c3fba6471d61fa345ade5d2e759cf6f32a0d4bfe8f75,
  0x8c7c0af4eaaba91a4fad525bc472b71b6a663e1d3b5120b5279957f73f615e9577245fd22a533580ad0acff793961693f6f346565f18a17492057861af741f36158ff670c7cdca42569dc8e85a2df3ffa3e2c84cecbbf4244415c38fba143f332d023736c19f9f1020bb6e9c01c81f6899f6b0a88425d90dd46bbc27ec84d9e23c850050ae,
  0x9940e1433ddb5cd698465ba52aa2205eebdb22b3fc9f0bcabeb6e513c667c7aabc3b9998fe616bc5f2eb97c31e5646619ad88a98c3b820b22497ca3fa6054373a7eb13bd83f9525121b905767991043525987262a22c395bfb98896abff94f095efdcd4d20f3d453b04b8c7c75474ea8e1fa7bac7fbda0ab95bf51b5a7c83113d97393b05f,
  0xe943c3c4945ab22552e7e11e6bef27f748d5faeedf2789a6f1e69ae7d98843ccba2f4c380440bf56d9e9fd37b99b496645c1c5afa83b55a06b4e940a558325d9fead5dab0e3e1ab403e7883b64da94d8845a451d45e4220a745370551d802e842503672960616d71f8d6c52f3b5b14dfd27ff4682a559a4afd81b74c0fa4ccad61b7dc4b40,
  0x3f72c66e47dd90a290e89b5f52e1155ea15ca99a7a0e6bfd68d6000a0ce501572c901b73ae0a9c335da75c24b2665d6d1e4ab74c1179732b01615a2d4f1e1612c5fa27500aa839db70c6d0ff2750ea3f5be284fac76adc05356c3b54661267f1e79f3027265b86b8f85eab35cb55cf16fd6f05c669de033dad0d7b1150c71adbe8020dc2cc,
  0x4b6288c83d5bc4a2f218fa3e5730c8eb30935f484bf44aad6d01da47b4954d307422ce017f456909ad1f289ee033a59a393c3b4597228ee9d62aeeaed3872cf563e3e4bdd996cfe88aa30804ec182759c55d497604af7a13f8627a34e7c8f448cb4a3b56a6c03acb4f825d4e55815fdb1d14f7d133be2d9c36b7d67aa40598402969d68244,
  0x0840a14a25b40e354ff60aad90c731ed685e34c93502928c6763be0490871c9b9c530baff159d70e69929bfad5823c436911379e6e41f2fe862522572ef1fa6598b9113c01b884983ce558f17243a878be892e78c40dce24e57f840c0b7d5af660c623d6ce2fd1d918cfaed27f41af2023fb8458a118634bebe42390bc4d7483107134945a,
  0x64358fab8516f35c69deadff11046448fce1d7ae5635f85168b25fdc678bda6d18d71ea209e60d8c42dcb9495fb2ff32e918667b53797c32593f893b804e6b05a735aec533be02d273a549e68006e6820cc0875e80de507d061989fd99151a1684b067ee90bd453580bd5dcaddc882483a4c0499458a8012a732dfdd129717f79a76c92e88,
  0xb57cc346278327d1eb49b81417530a2260ab918f1836804b1105692d2da5b329accb95e4219a96442ea0b1644e0609d9e30b31e57af688c4c4264222b2af51721eaa14b1a84b098ebfafdd125f66d80aa1bb0e1380e082e62213cb0ced6dd927bb7e5cdeb3c0a79c2e8480f9d08564eee65477d39bd76a837344644ea4331bc68f5433c26c,
  0xcda62057f31feb9e4adb9fe337f983ab4d812125077ac45e8d8d1b88ce7cb158ffb192c9f35346f49aef82652e63ee32c4637bbe6bd3018e5977823c78fa33578777495138db0bc6dfcf842cd21f36608dad00796542114f619dd5341b6ec39c85b0dc8a1ea096e830955dc395b7fb0253937d222beb0b824ba554b345ab8a63c1bcc9a215,
  0x518965f7f16195b3f076930ccaa3b57e19330aec4b4199bcd3adfdb94cd2754ff0da74ed3ca36e6de5654a06529dc089f2b36ceeb28daf623fbd93cb55302de700ed76bc698bc7a7c0f55f9052a1a396eb4d4889ae5ff1ad4b33cfe0fea25823aab58db54774ff414f85cadf7b489d34832dbeab319e988614c0d0cd1375e78334961e390f,
  0xa15792dfb0c7960900f7a1febc4ce870956db365fd0af346c280133f55b826ff476cdd69472ec4f1882e9600948c8842b23286e61612bdf6fefccf937bc4ee3e7a2c3e71c08063a847cebe38fea06f30b03f6a716bd2a8ae34a4bfcd2a9f4a30bc5269642333c96cba9ae795b253303c29c19609f7c77e349e23aa8bfaebe715426848e164,
  0x6b8abacaea1408c187afc565100228954890073a16136ed00b20bd241020c23d29db105e13f727533511d32271a28605833d1164fb9d531ac22f824e5902fe891bea27ede70676f87d4c0634d8cffb4a1a4d035ca6f673738c777c7880aa1e1d3acdeb2c54fda5ae2cd5b30e182b1a852cba7e83490e5fce08f846ce5cc553a4d22a9eaf02,
  0x0d4330c800d6067e6385a7fe3d1813a5a0e0557c26a2d020d19e1567b0612dd45c78b1c6d37911864eb5174a48c1acda810dbd3622de0248d49e6bed0ebe0563bebeb7bf53047c6c0ba6d696a10979d641f945bb6eac00da03f2f3fa645370700bf6c858c76bb684bd0e2ada4e9acbf1e9daa72d154157f80bcf28f6ed47de755ea4a3d515,
  0x3420456afb4a34aab8f11cfc01fd5f085e7764134f5efed91ed07f95b547d1c2b855254f1ea25148090142cf22bb1e7248e6ab637e9422d03e611efc7fa821666c7c377ec7985eea1e9f388ad8ca354e6055144297b0cf88cf1dc5474039fccaf74700e0ff60339d3d024a8225f8a0f28372b987e840db6a2b09518f702a5b2da4147735d8,
  0x7ad246c6a6cae12766c88075a81f56f8232e6797bb01c5fc8b0c6e491ebf6ed86100db7ab56218f56b26848e66a04097bee6bea6fe9343ce2528f273bb90afb79c37876ca6f323ec6abe90876bbbd36467904fc353689e72e50df47054b5431176e5fb916267ed40848dda2e7dfc7f48b4292048b64ad1d4a55aa3153fb16005949b3f261b,
  0x8ca120be9e33cb612e43ae8f61ba2e615aea6a09987e8afce8f9703fc52fb329dc4e26fc2da9c8b8a6d9fa4b6c0422d6090a5688c1d58f25fe3ed882d1677d98ff0a8977d5e06b205990919feee0f0b8543c16987f264d8375953ca7b999fd428a2594e47e4296d96c0af69e359e5af046d5082e31c48ecdb654084f378e1e40a472476ad9,
  0x865b0eb9a8fa27c23ebf0cfd51bf61dad236a006bb13b856941bea23ba1765989d84df7cc62057a9f558f44cae3ebe1fc73d546f456dfa1552df772681523bbe2ec691e50a46b9c78266bc3bac0f58e7763002405bcb9a8a90216f566c3396df67a9cb2bb550641ecdd42f60b3d0cc936542a2f591cda85a6d3b157ec2853f656b3b337206,
  0x3f62359b8663c2ce33e4a58899f2e5fd2c869b41e3c39ecef8d7fa8c496ee64dcf40b59d665e73d73103a8b733c4cb51433fb9c2f2b34efaf956454e0c363f9916df41e3a03083ef99bf883aaf982120011bcb8b0da7c3b1eaf861f75b0e55699528b89edbd4404a46d1d589c53643a091e3a44671e7e22cce35de737d598238a2c30712c9,
  0x73e9391b0f14624791c5d8cc6709edec739ddd796878d3d74a9017576f62c45e79f56297a8ef46620d190e152237d6e9c2b5b1b46942d7624133aaaec6512aa703f006fc29cb592a62557e08c7f87b2283c8cf5f2e824139a83e3f6af6463a7eb7841338d28093d36bcd754c03ae7b50076d7682b9f1eb999a7e94bf3bf7ef9fd4e08bd8c4,
  0x5e9ece4b6a9e0245c245a08861dd8fb8edcc7ca88539287326464d1a83af8d797f3fbdafd961e08dd5b85df7e3baac33ab8ed45ab7083ad38bff808e1ac76013dfbf7fd2ed6dc330b9c3f57e9f38399c65f8a88181cd26606faee3f9f886442c84f86e77dd4c121a830e594b235920c87f7aa8b95e45d7044c46eef02c6e02fff7ae0dba07,
  0x33827ac37bc4dcb1a6e37ef45d7b6c67823c3efcf5bd0c22386da040a9cf134afc844291b6db71b3f3e11f9d393bd08d1f84a6e7c9781f2589a5a05a110ee36ab4948252c9ed9d623a2cd519e90fb0b19279855b7a0fa8299ea6f396ceef08821c3edad78f0e48e27e08e3c7bfbddc1068b660f668c8c0ace385c62d8ec1cc60a4cf891f66,
  0x8387caec7ee2262145b6fbf46c95a8fd4ef13990ff15edc78c659c846db4085c88b2f480ade9ab7dcc589969bf49a9cae6c2f5ea7cd2d71e68a1eb19053792a783a51ce231448a7c63a7975d515dc4341429094418c6a19decf84dc8dfb178e9db7a08a19623f5b658c112445f1427edeebfd78c7a60d05070b4dd40d18bc1376bb298a153,
  0xd397736b15db1bd2a4a02f9eebc443f7a8b4e4604dd42d41a9c80d049f7b9483a7fd8e4ea6ebfbca3ec30cdcc7dcf75f0cc160d801c4e6347b0a9e3712a69a882a630ce96bc84641d09a3c8dfacd85e1e1828e473e746c4366a465485124828d72943e54acc215243289f05c112cf884badad40acd0a9d4f9670a0bd5a5f49e871f99b4ba1,
  0x2c394cd4238044678726811b1a4ba8b29d6895ed0e70b358623ca637b8625346eeddc9a189b49f46501e6e9cbf20495b7be918c5c9e0d94fa8bad41f069725e7e17099df6cfe527945b8a5791ae413904e745254c17f645b1df7762b0ac5cbb46dc399909dceeb5ac5f9bca45c0f4e2951c0ef17684ac3e234ca07e20759b3bd7b89245aa5,
  0x0e442cfc125e0ab30db23fa6e9b256a1a3ed4241e1626cf98a010f6f3beebca14bd5e04bbb25a75c82c0fc35ce903056d9b14b7be8e24af72e5f0061210c0f1455df5bdeff1b14fc04290522c5ea486f07c14a49c6ade6f536d8ada4659f20da883f29e0b02575ce5e0dc282a640d3c0c34419c89831b6ceb256f58b15dde994d2321e7d79,
  0xdf76dc0bf4abd4252f966b78340a6ac52e4867fe58bfaf31c9589b2bfc8602035ac40e17cc6cf6ae81e350eb90db05a8c72ac84bdc24d29e59a25abe69c3e6a1f277784e1f3f6c19d3a2b5b54f3348fb1d2cfa379452a8dfd6aa09869795247ff3bcefe6334b6222b66b66df702ab241bbeb70df4791dfc713835dffda32177844cf2baa84,
  0xb3c6276951a51045a2013747095b6f660e7323ecafd14e4a6cf2aec8885882748bff2a875e6a538f1754e26330e25c9f812a5f7d1a6fe1a2f06bdcb66d9bf58ab8546b7485b28adf88ef6519397545cb9bfe18a8ff610e8b8a928246378cffa3448390b125bf1a7826ac9fbb86d4e4600d9de9367346e9cf37fa4ae29aceb10fba0c32e766,
  0x94553850e7d932e7b5ac977414ee2ea3a15f782867f884b83b130f79c5b69e6e29f844393d7139fe5e0fb33690c515537fe598171244b7db02842b19c03d417dc51b172d1879eb890c0af09909ebe60606027375e563371edec0cdd2fb40cd6180dea2584a0d6c15d25bfe46ba35f7f201912ff021d079faf6c745b3cd7416da536668890d,
  0xfa2f3157335889356cd1bca097b3a525b659f164568e56ce054318aff52322ece3cf70e3aadb449261f7f055ce853f52ceb2041991b350002f3d4b4e8e89febb88e5f1cfd19696d90a0e8dd5ff67756324f92ff5c16a392ab61420b3a8692a32bd3e0fe78d980dc5b59c24a192d0873e84eda027fde17596301e94998b4c590557fa788dc4,
  0xe64bfb9d1124cbbfabc6fb41f711de0532e0acce64bdf1babce4dd940daa22bc1f9a12cbb85bd2ba88d4ffb3bbb1854b8f0cd5bb349b3a2c6c3f8fb74354065b3e5f5a566a74a596fc910fca730e628995ebca8a81089520972c23465b9fa96bde787427c56f2d45e25fcefbc8cec06b69e1e91ae526d3538ad7f971290311de87ddef4540,
  0xe87ecf2b9f18f1dd111e4d76dd530b3277feb35ced1204ca23ba55248b695a5dc267fd1a62b76d3f3575f73b05dd4913afb94c0b662bdc04a40634c42c502bf36e0d123ea5abc58f3892c3f266299a38d7501217819b9f64745ddbf9be8120e1acd439a5221fbbe7a0bdf9e06c705f9dc0c0f8125e053b200eb2f40403dbb5263c7bab6794,
  0x81b1b44e1e448b533e5a3a720a490b9d75c6d2fb17208bdd32460327b64938fa66cfc5f2c6ac8b7eb5cf3631caf4a243cd846296384eddfd654e6ae98d6132d4be0b9f6bfcd608d718c13df0d05d45afb0bdcff8712a02c98d7e170ee9d28fc4e441a3ef3f027fcbf40e1cb82ef4826c2f6f39acf53945ed7c134a7a63d792e856f54ecbeb,
  0x0109833ca0c70d44a37af1641209d97dfd3901c6cb63926530975643e764a0a2e3d236ad7e666e6340d7fbe061596bcc72e6a6acfee10adbde2f46e19a71f81c8ee14e15759e21eca9007c916a16df5e590be1303691b514bc2ee1d36e9ccd3aa7e80b9f3d66cd8386f4e3f10a1febecb8e26d688158f3436844c7102605226311dfdc48c3,
  0xc2985215202cf293379955093cf0ded0f52d54da068f96a1248a79032b0fd03ee9cbf61b21e956ab2490b71e2a095361503878902a680bbdbf1051d951f9456ac6aaf3673e95049f756f7550ad78125e4c791aae8c3211f668525e61e8c0a00e577a63dfb6ec107ae39e9c04eb29407cc77ca66685b24942d326a977107950f7505de09d02,
  0x9bb75497c1b9f26e658615eda5be1e7d9ffd8679531d2c85e1cdb6055bb9055ea78ee3feebd3ed3683f91b89dc8218f25c8fc90ad59a7b2c2784d71484436a7dbdef8fc216e9a9b38b27c868bd810fdbad2bcb2913d8f4307d657b3770fb2128abd3cc49c8ac2a64b45eeebeba89cb1833092c19f8db8653fefb7e81c0bf79f39d8716f78b,
  0x09a8dbd539f005a5263e2b6225aea9b6c9798fdd4ffc788ceff7cbb5663fb6d3821b7b3d5a14715b1692d6e0bc1363b67a62cf333536ddca5ea719d47e3f40c128d0783f8419763c42dc5ad2e2315f6c9e76a5e0f7496428efb1def500d57095a1b652a8dff975bd052a129d056c61472adf730eed2f371067eb0dbc66b4c056d6c4451127,
  0x1ecbb1c86320fadbbd09b588fafacd73f7f502dacea655c0282152670721c1b4c7866e4bb7de8159c089e6e12745f6955bbfa19042bdaf88a9632b0a0747ff03a82a68d97c97fb5cd48231a7c9f8e72147773b83f5b1e125e076205fba103c092cbac56e35b3a978589c276a02f542865a1daf0d5ebc5e3e450b65df6705e5d9df513ef7fc,
  0xc7872daa08ee4c16d341d7cb62fd06abf27d6c087d80e9d365452394bc20054e92d90d57fa0e711ccac11c4e216ae672a9ae89137ef964afc902c32626631b5f206f3209d86cf81e4b6897cd90eb3f96b88a839f4e10e7ab90940a24ca14a6e28d6df8c3cccda05cb559b3be019d1683861fdb47ca22e68e66e23e6f5678ba44e3d3d9c566,
  0xa1fe16f9cc8c0996d4d705c05d66ae54cefdfa6afd85c58b9c4d6596d375c8ec0bb24fcabe538b1794841abc051d2f7f9f7b540815923d9488231da7e25ef4d5ced53170a35846686e4f138f047968ff18144ba9c6da689ca02ab0ccc507c3e1502921f9536b830cbe166f912fdc4ee0fa7c3989a8c8940ee4caecd59eb5766b104e4d254a,
  0xd24da0b83b25c3daffcd4e1f72d66ee556a16d2c6acb88a6ece95d18d66a356e55b168c9354f9e8c8a24d6565c58a9455bd35cd75bc976ffecbd8e956ce0b9e1938161bb99ae30065c7c8526f9f9ad3c931c7a1163d383ace37573fa4bb4572112e306b66a0daf642315fc91cf2729198acf454628b836e8d224584579af7fccf2d5c1e05a,
  0x36af7f0938cb5ecf2514739841ac212a81afd875ca95d5bf7150ec4c6546ccfa531bd76e092eef13478ee09ebdb9114e596197d7664e8cf6176a72a617b73db6c55f5e31d5e4e9bedf86bd4b8db91100cc541b15e28a6728bc9540e061fbf22ffc55c51103f130db0d91122b93a974b002d851917f171a69b321af84112ab29cdbb796524a,
  0xe600285206b18b4166730794cba4cabad268aebda5087b656c8d72dd941210a11fd8cc2fc6cb385ac451cefff560436191082a958864da99fc6fb5df58a7095244044aea24ca0b5858ad598fbe5d9624e7da34d91569712a7982400ef31da0ab5cf7e194c8efc0f25e12ad5c4c653e17420f30a22d6d42b09d77dca1e20d61f49963375f53,
  0xc247044ef31651d8b348eb7132218dfeeb9c946f4063dd6f42213705c8772540b0d3fc2a317ee3d502ea79ca48350929b1c7a1f660cfa51da3c024cf4d1983c5d4bd890024c0addc310568afe35385c09712b87aa0b35133b7b1655eef11d7a6ef949bbfdbf55b70bd538ae5a05c5af46528d8ea6e5d9b49a1ec9234490f98eff519a93d1f,
  0xa570e4cb73ae705fbb3b047fd223ac7b095111e80bfe989c6cfacee7d7f02b7b35e653e7fc30fb17e087877f9c6aab3d1c625262b066f43c5115eceaad80eec9d418bb7fd2783cbacb260406968d50cf17fd08cf7b775b37e3c43cd1beb90df518d82b8e7f0d096d1b1280ec534ad987b84b8c6ecfffa4add9916b6d8ee473257a768d8e97,
  0x6c75a67db8689347715ab651a9bb854fc50277804f4bf49d02c1fec2a81eec6fe08151d3a4c460e1db7bf1eac92db917a9c05d9aff34472bc17487ded10983036c8b15a057a60621491dd0034ae36904b0a6d7c25b941f3f4723b6610c17418c5e338cd99d7cb564cd0197e70974c1689de5ff4b2d821a68279c68e83e31c9461830e435ed,
  0x5ad0a348b63487e7a9bf37530b81ae4f60b27162631c984811a25e90de6d4e594470cfa637b0611a596125487b69e0d0cd9f3731cec723bae1ddd2073d95a05691d0f0905de3bd8e77e28af2d968801077e8014e5a2232942f0c33ea30e796557f978d0997c62d949d5a6a170fbd679bb616ca843e705d96586420a6f7c9d79d98d05225f8,
  0x5b8cbfb7a53c09c067ca8bf148e8e82745212ebba6b6e7f9e1575b55f2a2ff612cad3c7835dc50246a7c5602c7ce2be98e579a31c4358e5f64d0ef239827e2026b0a7c1532080696ee560c03c762fcae00d96fc076171ffa460001077e6520d11b2d641d4aef949aa22478c69d561b11196840333a7e569a3b41611afdaff9ff00bdc58d04,
  0x635af231d26ff60b5892025231312d800919db4ffbf65294bd51a3193ea6b6007bea65261c96bc1d8ac588c1b016a0f72c762c1086ca6939fc3726b7a002ecd9f49724fb34629b3188c3b4855ba547dce51da91740ff5200e79116bad7494bdbf193b9c9801eb40b2af27d78aee75cb973f6c09e1f9583ca52ff13e0e23a381a8c67419505,
  0x3677376ebff7578cf794d40759f4ba00dbefa7478a4b9cd4bc85fe6de5909e65b097e889b9ece8b1b94892524f9733d0324a047d45242cb16b1cbf3259c4d532d637e31eac9cd2ca724c414b8eb0f6f1d18f365426ddf6b5665499c7af6d08cf8056fcad33011e8243040849fd2222ef1f6368c67be9d4dcf2385cf9d880302834eab77e53,
  0xadbe60ec0bc39f520768c6409eafe0d26969d7cbd23d78c7298b4f9ac7bd016a7d530a185e2c07ae4fbfd96e294beff95721587b92de2b949e078d673ec6f0f36a82d20d130bebf69ca6fd17d63d9a1aad17716db0d256c2427376efbd2f26d5661f728e9f6bf68d3424462d55735198b616bda68fb1857cf19985eb60d1afca0823fa1489,
  0x280f57b44b20922f6a6ca7dce1318d707aa9148face07a46763ca5b661c8d6be272d1709194d996c3d803b3a52ba9d6deb0597378e85b7d59eb055734e7c19303fcff1a6224a60088cfc6dc286ac88bcae81343b8f3a37f26b919c3353d82b64006f0235593f990e9e858c836c2b53debb80a332cbd71ab408078a0b09a093d5e007ff2586,
  0x048de2163b240a16be4cd624c02032e56d95ce05725b8b535198d82f1d1c02ea03c21411bed047079e53fdd1b7d9d8f309e2ecfb82f131faaded46bdcc909050e225eae43976087f1df73666976cb547b602d90d95072a7655511b6ea00fa7316d3872c87867d6534e56ad4deda53031ede0f74a3ff228b60961bbd2c11788dd39e91d8037,
  0x728b36a6c505dc60c84717b10cfe0b0e6623d92e68dbbb9199e14d4141169d2ab00ce1ef1bbfa704712e5becfab5492d34a21ee3c27893ed37d0489ffbbc9ecf2deb7cc89a95665cb14931666a8fbe950847668b27fd0d251b4ba0983bd2a2cb8e1d924edf6a7b4d178c2e5ec0e8c265448f7372ff03880a24e2eb7840b6cdf7d4472e0b00,
  0x96b43f7fe09315eba3a028cd63426093ad5f70ccea51ae2c9c63c3868cc77d9236bb8ab71fb77844c41bf6ccfc4f3c5bae0e8bf8d94c73b765c9d47d5e8177f08e1b0b0b4d6b3d9fc3ff60c0763e795d23f12bae3b58a0ba5d82b21404009e21be4566b080fd1b59a7e42e9ade96a7ef1633aace1c9234356aaeba5cad140e90cc4db1479e,
  0x124f19bd1180df308968594708524c558f5078a57e2f874be84cb4a59d702ac062014f3d7f3752ea2e44ad0427c076f7db16eecbd5f73d12e00161bfff0ff2ced809689a461fc1bff4dcdad0e0c691eec1ee6a2d0aca29cda01a245de892c21c0132ecde0883d3a811a267d59c00132332f209a711fd344fcfb5281a9bfd855fdf5d71aced,
  0xa96d94414f799298a7bbc142cf6fc4c480c2cd83075b33779beec6b35973518de46a135b49a4308e163eff77fdee1f08b61641c2750dcbe777ad49a98ac940f0328660c8b85310407d19f5c87c524c3a030ee516098dac8325684ddf4ff58d25d02e98b9e9ec26da79b8d1aeec8fa9ecf38330fa3097b3395a503173fd902efd0f435d7abf,
  0xf7aacf7e8531ed3f749a8187181c829d47fdbfc0121ef1d90920adf9ca4016eaa0311c7c70a57e058bec624b3dc3c3f08cbc7111f0fe5c1c5befaeb82284d11a847b69a2c01e01ce32c2cf4d772cc297ae795dddcc394ab34d33c1dde2b0b6ed56588645e4f7d77729a814bbf85e5b0be88b2672794416cf67b7948136dc37b1fe29b902b5,
  0xbf109b035e7553fdb1d98f04be1f44cabd63d91010c483a149e8f673ec014a4a94c13853faa9a49f95e38c5b1151df38b7c355f5d6fec54bfb0f3f5058aed6d839709da0dd4d51b9951bfd76b617f60cefe66da4d7d18443c83274e00487ae4937d0b7813368201262b617e9e1d8c346af7ed5fa839c4ee7d4e28497df10be30809cadc995,
  0x8ca9ee1333a953343f27a0df83c187788a7d2a4d463730d02445ab74e452bdb9f56c443d96cbab2ca8e219ea55266f85854d0fa29e72d452e305934b7e7d366eb698f541453763f1fe7e0188dac87ece919f12ba7fa495e683c4cb022c43f49fa510c24295ff3e7d5ea2131eb050f92dcd3eca1dfaf3c3b748e65b8771170245c3d4bd0851,
  0xdefa74c6eb96b5836c3b61c77fa0072c2a3dad36057c37e721a5f60267859c7a1922e712f9a260bef4badec653faaf98c8590e3b285585d3ae9ddb00124ffdd13aade10e80dca47ce4dd0008673b62037c2fdf2a791eeda095bcaf1c92d977d46c47a0581c89ab7f57481d3acb4c3d4d5191a1a90f221dcd4c746bace64589429602d5e69a,
  0xd34dc17b792db45083d5ba789e6e54ab0a28e15c7c88ac725c066172591836237a25730c3b2e776ccfd837d825f8acf3c4f23f6b1cc68d82051cfbbb9d45ccbfd2ed81ece583d7b094c6c7e52e42593315734045a56dab2f7ad8768a6fa6dffceebf8af4e5c9b0a85fcd495434de4b068fdc31a599fd32c6c2b7b545bec4b3c9a151695549,
  0x003f5052b2ca29b7d7c73e557b03b7c97066f06fdb5495250d4c6a68e7a716233cafc078aa196b85f05a29e1db11c10de7e41ec1a724b9a095188dfb1cf36b419f4c59912e5992031466dfb9524c4afd61574e9feb936faa64398e64634befce1674c7b766fc31db208f8d9f245ad4ac8fde92a48fa4dd77ab2507e8dd6d6a8e9c8674a64e,
  0x2fd8b5903bc1aad7ee2fcd8bcc347f704f3b1c41d5c6bc69f4096510674ef2c37b8a6471f655e8e155667ed055dd321767f79dea9807ed568bff616d1ec37b748e9400057b1cadd35703551d491fb1ecb5297be23fa8659e3d91d4eb4335184ab2153659df39d3f777db1e75a46b61839c8c5d39747fefb31a3f70bd82fe6d0b333b8b15cd,
  0x411888354416fa91716ae1f606046a170cc563c3530d9559096935bd0bd871b870349ffed58c6a18f0cc619288cebab08e32f591fa367fb5b34496664181384cccebb2ce9ff84a4669b59d769b41cb3b541f9e514f500f2c74907b86d645d7c984986b90c20db39e4fd6d6c54648a43fc418afab1291756ddae19754014552b3eab86a55a5,
  0x5dbaa5539b91fb8cbdc32538644231585f90ea569eb33ab887b2b993580216e723534af2b8d851a31fbc51d5d71010dc5083c1c650143858f29123572ad793cc3fd4f91df1a25e26d0290fece21b2654eceac761b6b81d3517ba438b9c959fbc54618db541773966e692e1b889b8056b20570b131a43ca449060c5bdb4fda6c6ac677bac1f,
  0x7f6b0bdd07b776e65e03621b3ef8ba0fe4876c13f10a5efa93e2babd8441ebfb3dae35a8395d25a5573650c88b5c7a5cd14d9251eee756964461e7beee6d32f88c9bb6b35e30f0f2698ac94662f0bba9689782b554d19407fa994b977f9f5f9803c4c947c5dee8a44611814f7614321c5173b87f3a0ce7d31e3f4bbfc141442e86b76c119b,
  0xed191b61c85a412b9b15f16ae95c5018440e003723aefdb6f6afec4bd1226d1bb7598ca0cb7e5b5d27a02db2844f663f98d82c2615ec4675693bea675eeb5c2b9cf5baddf65231c72bb06086b255ebc92e403dfb0791f2a575a61d4a8d42c53e663ebcf6113103a4a6ad5f7574b510fcd105046d7aed33643877493de1adc8337196619c10,
  0xa507cdf5d68b36141999d63bb57ce014d9ff3efb9bcf7c6f35b5584965fdf117f7695fe43374b8da5359918bd048d4a663162e269ea012bf3790a30622c9a77efcb33ad81051b7da95dc97940b556208606955d05b3cf8602b77c54bfc2de7c2118035f3b66687eeffc3f4ab05018bd7c39e651387098fbdc2711332f9874d23fc4bf44f36,
  0x1d85a8f9b64cac89087fbe1c776fba75cdfe8dc706a57066029bff00f26320c785125297fe07fa6bc4ab4a8e9d088218c3a52168ce4ae1f0e66b257250c09a08787051b08cf87107bed01cfa60378a8a7cad497b621a89610190df8ab893136f7c276673b9eacb7db796deda1790d0e0d487a9c89dd7784aa0770c9c1df280936a71462fd3]

/-- fsb/src/pi.bin, bytes 34048-51071 -/
def piRows2 : List Nat := [
  0x963e0fd2e91a17de93d19228473b9a9d294f4d0c584e49d938cdee2826b150cd082953e2caeb3607ed678dbe5135a4ef32a2706ffa09abdb8b64a09dfbc890c755bf4f2f699d56868abcd80011ba48318819510e241dddc64eccd52711cf0b7d45d0d1238ca573ab17061bb7078118110c00fa1bcee628290018f63f9ae06841f151c84e19,
  0xe4102c90f90b7978038250f8e69e548508a51ff27087f448f92b7a6fecfcc893cb4bb8144281c613bb8f90bb88296636b4bf516bc7203c2932f2149eb292e7338404a2673d8483f44d833ae1d4b3fa84aa724ee53837010edcc38a9e57ef2c1b95583114ac31419758d5bda11973aae9577513c00dd12565fedd5da94de0168e4632233e4d,
  0xd4e6b4bdc8ea2d7229b3543a800f0eaeb047f8d3d0b69f56866f497147769baef23cb32bc0b673d452b74e69f7edada1923065d9550fbe51ac54b836657d23c6261758998502e99f2f1f37e7fa19d0fdf5dcf4393b878afae536781319ce5c77447a5861dfca4174847a64e052aa8ad11d577c10383ad92b8c3400f928b2ff6f7c78d442e7,
  0x8408001baf2a43a7d0f520bd989e091f1227a4ba1a92f41f4cd2f95d9aee735764282847d9a77d09f6029bdeea5aa5f62063bd43b0682a15d855da154f8880b38494f649f3b2cece50ad2fc1700dc27bb22955017136cb90a75ea89e489f5e10c03785662f8b0bc5a33c28d003e8876ef2a5525777f9a1a99d5e2a2e8415b822bef4c77058,
  0xed79a26da34a572e2b3dbf598ac902f97e0162763a204dc2647f707284f6cfab81530c60e1e4352397b5ed930d720e3f34afeea9d6d4b663b3a7cb647b1f8097e190822811e4c99e2810582f5d16fbe040ffd5cdfcf179a986a77c83e4bfc053a50bb87096206326575f29f8af07b761ddd34ae9602731b888b764090e39b823e950d49c32,
  0x9afd0b2427a63914d58dcf2039f027dce028a55967a4495f7773b1c8efcabc35c46ef53efa2e93e00ff176c0955f670f383aee8fe20387e3ac3706d248b0386c153bcff8697a19e358f615b8497a27c12acffdb8856c4837514086866341c154cdd5eb4f2925161a6d10be85cc12f1443cb72df4b14b4228fd90a97750aa1a140a9ba42f0c,
  0x138741733c1f23c8df2fb3b1664bc30ba1f25b627a411893a4d412d75bcbea03f37bc5ad3180627a7438dbbade8c2144b2fc655887a2a96867f9d64967c21e3cdf46c5bf9ccb1199dd1893a2acf2bcd65ac9dec2e8b58eb4b913093ddcabecbe1f49eedf3172690103aea456d89820d15b113963b7d3d150fc6e455b501bf1b9171a5ddb03,
  0xc4f97f275579422708b3f1a6889f323eefdbdb5e6701301f188b385bb4a475c6979ede87c0ee2b986ce8a8cd68221340a84ef9880b4f9782c335814e013e7f12b0037a2140411405706fed7678c833f0a84d6419f7dc8b8f24fd503aad8f2dd12e6ed0de91597ae91a43c6623dc8b294fb45293da91203afa13ce23dd57d06584a64e1a59e,
  0x4d6643ef64afaaf1dc8ed0f8287370fc68f88addc59bcae6d481de4554cbeb370a85e866558f51af5b2ede40901bceb1f3649e40b7642faef2c500b2efc78396598329c045413b5567789080ebd04bbefb21288e0bdb654a7fb03eed2d808685ebfc9545083f925036725e28299b41fba480a2a37787490464304dd4670a90413e165b293b,
  0x2bacd0f509d20c42167b48c6df0e7f0aa71256cbe4abc2e3c7b6c4faf350597cce55fe82ed741be2cfd7322b1e0c729003808b13345b52f49ebcca9d2d4f8a590818661d7424b8585a3ca15a737158075a557083ea8e957a5d7b4d01ff979e43110fcb7e9a7d2bdb591d9c0f9cf75a1df51e62026d1fac1746ade4b207bff0aee4b9abee43,
  0xf6aca443ae53eb05938390cf00f6c71cd594933dcb93a25b3f9e11d63a4e947269ad4d27a2a5212a0b9afc92c309e2604647ce2944a845eb557cd5de4c0f0a0c95b915ce1a23f3a7a8ac6bea311468b0c7db8c1ff45cf6fe83523e42682372fd6ed2508e57918c5474bce29aa22ec0183bf0395299737bed3e5b8040283eabcbfe56e4e21b,
  0x6b79cc563935702197ea69b0c79771dde51725c7bdbc6095cfb7a878bb2300609cd053ad8fc653a11a000a797ab51e379d5f2ce5b88e59d9d0f4cf71e3ffcc2555bf42f39d11045ccf7d85c4bb90ae7884697df520d33895c75bb0f5f3ce3c75b1edf21c23c39d423d846ce49a8f960006cae08a18e6e70799c02c39e5f65ce705f9874e23,
  0x78a769b6ce68424051335457227c94f1ecaa5d1bb51b4b71d8cb0aeffe6a7b74baa7878e34df8796a2c4204c80c974aa800c0fe982868daddeffcce2873e351db784e7d014260a709b6e2500cd07133c7f9f29723bda4c4ce7cdf2273d20ac79a5d348d1ab509c0ff40ffe259ea3c98da4a6e720770717f15669194392281be1ae74aeff0d,
  0x70f55559782b908f7de946c8d9b1a95782d0c1595217b7e1308a7cf2464ba51a9258f38b4c2b9c6871b910e2566797b54556a8a0d8e0b1e9aeba7add2efe37e5b6d7117e1d8823f086a47dbfc94798d923248cb298b32f5387a2b74d944138e7a470dee2222bba35ab7673ffeb09445c3cc6cf9981b09104e2b2579b740d25a06388b44acb,
  0x0d23732e7d8acbe7a89c5440d199c978af5aaeb298588319a13e3f129bc475f899ceb2e04a6b579e5f750e1652c96275d423f89afa8c3daaf26238edbc2293618c803bf8a603e742f2900ffdb8b5d62da40728426f343f09a9068501fb421ad35616be49f2aee86e29bcade3b8ae50cfb1acb60cea0e6229249fa4a9958758abad534c55e7,
  0x16c7b467cbd1b98e37c30e83dc9af346721a5cac6a70152f0cd543cc260679fc96a0978f4a25e5190c29a60784a95a398360776261bbfbd8c2b556855fe40493fc13efef8bb9e25c1d766499995244195c2c157a7b329128c0c880235f7c998c9942aaa52dbae8d8de67d32f0f52fffc0763d418afa3bd238ff7f62cbd1b20337a861b2639,
  0xaa62cc0e2825aaf5745ebcd6fcfd364ddff71f093f3e7af2596c53e960d6c5f326af626c54fb106bcc1c1f239e354079a64d07823660b6eabd834a0cd7ae48e60cf88da18cc9457d604e2ef0050cbe358b417d80323f78638ee53515bae7b43a14989f060c6772d39fa63f2d3caebf29ba6c497b754b84a926293127536aaf265dd22a8835,
  0x7f83bf812d21917c858a9d77adffc9835bab6e4e52340e46fd8008d8b4fe5a93e8b4fbf58b61d699524551aea1e2ad34d90e3d27c97969779b5a5724f799e8fe64423cdad0a7f2e0a491b9aa6bc6d5f3addd844f3acd5665e4315d9a7db76b10b6578439db9aecf8f51f331fc5104b902fc1321716157a337a46fd7a88a414aa6c2c49c0b5,
  0xb2bdc2e1760adbfd7206b9d5066f066c6670838354616fbca059798e87914eb327074f892f436ad118a0aa88539e9cc88fb717c19854b69a7e383dd1000ea4ed03475789355b49dea5c0f6de9e60e67099ed61995cdc87ad362852ed5ec0358cbb147be387012273f8e423881746f17df1bbf62f7dd11095e13fb9d93eb5caf4737e1a4e78,
  0x2f2b3766a4fc8bb47f6f494f70a3f67f2bc98bf26880582b70d9e2b67a856cfed4f9fee59cff60a286b8c36a31b2daa54cc3a6ed9f1a0b4a47e71d1c2166d6217d0d75484fbf1071144481bafee6f1166c8ec30ea46bf6cb80b4b1eae66a54bef7c96c9e90a298276abeb5bec5a635d13b218a76e2a334f5f57868496c77349814a6a4a00e,
  0x0f27ec09877971770ac54e7661857a55400ec7daf473adcd11eb534945c791d0b35b7dd91ec16080db68124168cee834a61cd127f981824093819c19bd206246aff85d1c33266affdf2f8997ba30f7eb47bda21281cd06e1e3560c74238ffe94ed93be29139859ca33c2475a422730edf93cc2167b5f7ef6d58c2d2cd35f1072b9732725a0,
  0x8dab725cc211428750502394cacdfdb3fe4259f2338a67f18d4104a4133b87b3f8e1cb27e1bd99260123d89bf51cfe07296d0397eb1c970df972074197e6557fa129a121601e91d0ef646ae62eb0979af77b221aeac31aac51d4b10ba9b784dca3033dc6e8e4089b0f94457a4277f365bff8ade5f55aad11cb9f174311e95e20ccd3d133c6,
  0xb0692fe0aed7cf2788325d0ff9ce7695022689d84e40f271064e55fb1a0a30fea1e51e15789d845cfbee194b11e2d736e176005a8f990ef016e767484ee8ef05402b615e5f7dda3db37637e936fd0f9eb753dd6bb8788a95b96e6cd20dab272cfc17a3b5c04ce1cbde6768ce8f5901313fe55eab5d36526439e94b6be42e7426baf6e207be,
  0x34a5e28907daab8ff81a4aa9122f7689f8caadcb255afb2dd779f3df854085ab1ab71cc2bd35c6833eb931e9377dbaf7f5152064ff91afe18cecb0f17dd0805e996594862baf7fd5b4dc4ff4878f845f5a9ad3a24613f64d66fee7f2083c77315def8bdc0a99de19d72f4f614c3c354e02e7bf5a90646f8a5bae0975477f59501de1d5a044,
  0x5f6370d983ab449253aca35e2f383da4fb858653a0e998ef601dc5edb4b6a87c3ef58d41c668a28f3ebb4c691f5d3670ebf8dcf2913e19ab6fa33c5cf890319099223f9568fd30cb648d90e9f798647dcca37d83ce30ec1fb082c30648f83457dbd90bb670699e9215d55aa8852a9bbbeee6a8a65713701a69e185b2a3e5f5a1eb7c46ccba,
  0x0ea09816291fb508090e92500ba9e8eb9dac70918f975a3564b150de7f0dad2951904392df6ad6cff3c4ef10f6bc610eb9ce11198064378437bf9f29ab08bff958a0073c81044579366c7c4306fdab2604afdd994e4287f99c59090390961d44f1aa103e7225024d18c017d1046a103669fa71659128f8848ce70eea5569b3e9343abfbd85,
  0x5c1c6296acf5c400e8da86ad4120408008554511073ab3bf7371fa124a6192f08ef64cd38bb430269c629708b52cf06927ac9d3ca9b956a56f2301ebacacf5d69e6558fb2e650ab96511dfdf61ff1fca96f0e9bf41a973383b28dcb192ea4b2133f1066105d8a2ab6fcc4f6c0c97538781f510396aea63e8274ddc2abc571ae3edd31f52a6,
  0x4a8153685467246142eddd61a03cf8bfc3e0eb889cebddf692aff145ae3d70e2249bf852527b0a7f76ca02d3b53af4077b5a8e8b35e88529437fd4b9d4fc8574edc7e5aa1d3ef61b25092bdb4243ceb7f37a1b552ee637346ac97e359dd8c7763392b616079ce2fd0aafc624ea3442c7dc136f85a273b9343f40ec810867e15074f57a3402,
  0xe9a853a4e5f807ecfdf0887eeec8dcb8de21c8bb2d6566849bc83ce55aff5123d9cf08ca6af92d125c5b77af53f91481dd66d056ff23c8fb5f4801ba96e481d34e7dbfc9db254a43223adccfc9c11453aa582f063cb4ce5ec8ceaa70bcb5a1c88ed7f411f9b38f8d6b22bb4f6d961882e08245f56393fe131d396086891fd918acd5017daf,
  0x640791530959df98480b05a9b2ed6acc5384b698ce9490ec13fa47f4ecdb031459aa28ba2062f27aef3bfd9b7355690a4894698a8de70ed18af5da05d631375fbc953ba1eed40067adc6212266c21fb685a83d35de8241be0a7fb46aee67871dc219c1dc8c37e3757716f4942d874104a47be1a82e0b7a4fd37b9d6ab3598efe06a8d9a49f,
  0x73f830a8d979460140e4b66cfb649129f67831156c943b9d5f31fafde4cdac7446507cdeb301ebdb5bc0f474d0df7cadac2a575d853435099a9e74656ec59597b96da1f577e247e4e6999e374c465997508b6951e21004ea0e3bb4f228a33a09bcd53d8df379d4ef546f9aa222b3300ff98549a83cf1de9929c11ff19de62d852e021bb742,
  0x3d3dca9130a847b26e9a7b57e33739cc2d261be358ddf223bd02ab766cb90d1d01d79c9a53b5e17f1fbfa488b7b30c6f4fa08414b7aa19804538e768000818913021c4d098c9ca14ac9a246f0889357f24e0ca799f2d959cdb51f694ced16a0fd8924e77fee114d9c1f5e7b0ed2c27c272257c564315c9a69119ce8813ed67db48e08b902e,
  0xcdc8b2fdf8ff1ff7f2105eb71d6a11a69345f57d449c1f378084e48b6fe3d6643faf985bf1161efa2183ea972b2b82391cb01ecb0d730964c397f656fd14eea4faeb36dacfc5349bb5145df4cd3f684ecf9bd94a658786333f391c0a4db396968b1b39f1ee6d1dea0e68c8cb6220d9c8764014e17bc0fdfb65993d7b0f530167487c8eee7c,
  0xb5569ab943ff425c71b9212916a7bc38071837d9906e0d5ce47981b75ee7564d604e39bbb36d954c6946cb3551266d33819f848cd031e06b63fe1b3569684e9c7ce041486a6d3071433e0463277f4ca8fef5f9c321f5188b6282babde346dec58b1a8468edf16b738cb620c7199c547686157011438b0b8df1914d1caea436118c925d53ab,
  0x4139f30c9e9f565b906c81de46b6b92df185e4b057986508c0252e180450217d657e24a7e9641ce3a188683c585529ca2afb4ef422d2f2dc2a6d95372c7970d9908661358008c745030c54dae4bb2b0043a1b7d0664a59d1593def9b743168f653d7367781cc41f6b4fe51c6b40a90532964ba110007ca6867a56e3cfe044d6b382741ca38,
  0xa4cfc38cab220b3953180bf6dc5d7cdb5e2553ad28cfe9beb1c35a7a6f1faf6ab78b5b173869b6bd31a9f46efacabc37ef1d3b879f73b5c811f301161d694c3b440a3567f00dc76aaa1a09946b341c8c6b977756d49db43e1457bfe49f605cc6be6b2a533b3dcd63fc13f8840e2c0af511c958ae43854ce16f8ad6008965d025da811f273d,
  0xbf6ba62637bca9b44394d215198abf0b1bdb6a4c971bd0b3f12cef56d9a3da2eaff4ed4d280a2edb52971d15b39e86016d1757ce0d7085b83cc8aaa3fa4e26307ffed934b3527053d002ec486c72aa822d951dbc1250fca83a0a3378493e3d89c407400955fa9edc23642db055d53221e5e5f31779834637959422442f8104b06e648c34ac,
  0x36b35f151f7e38a2e3c9494caa9e76442db6e2671347b11e6b7b9cf3c57ab87a30ceaaf4c404a35d232f7e9f55b41a2607a0b64146322622c42d2cb70423cf1fc97e9df3c17b09256fb614c730f19f5bba23de765220606c83de2548a393c816876db166a11b7e2f677fc79cff9267d406a00b58aef16c3a8e17b92d96a2e3aa95ff5e627f,
  0xd38d512e2f853f8376de8f3912320152c34311ad9ae3990922cba46a4ab80cefa5e5e2d909abdb51ad6742a46c7ca6bfe001df6802e8f80731d47e11e51eae5b3e69bf627241d801c9cd211fbe3da90311161b3cf8e125be8bf8b9efd6dc225b622b55b030084e1f3cb9aa2dcf650b8e1b165a54b923b7ba636cc043529e766fbc642c1cea,
  0x86b339460a114c582be32f3d01ba5befc7df5c1afab1ca13e0581804367568abe783df84bd54b263c3fcb3f1ead058d316bcc4175cc16403af3ddb251fbf39c8540a7952246f624444dad01dc87a8d9fe39a6f64907cfb6d2504bd1fee8d730c19cca275518b5d595e8bcb45da468159718393d85840fe521b7af0c3f2e87b8cb9292eef76,
  0x734d0837a28273fa5690c48774b23ff16d4b49a71114bb56876d5aeb0b5a0a6812d949a4a96a009f301599120e5550c7dd3feb0d9ffc12e8abe108e6f28d6d329922fe33b0041833a2dc39d6f818c46b3b1dd11055b125ca05072e5f6e6ff5701bf04ec39f61450ae716e9f7c55b8cd6c5c9b6546b9cc59e452b2a360680aa0d6ea49833d2,
  0x6f37c56974ecb4a1d1d6b516a796ab8cf6d036b81cb4bbaa7130cc98b11264be95f8203ed7b90a921e7603f5a6204b96682376f7dbb621e4325aebc0ffaadd34e5420b798adb23704a15f2e0d532811b121233df25051aba52c822a9e390ed59266b516142e0c6adb8793ceb75b0564a2e4368fae231b4ab55aa799a4789062fb281ae5bb5,
  0xee68e2d1bc9beeede537ff63c8511f1efdc3435d8d3ddf2f66da5d777bc272eaa574b706f2bbb76c0b6533080785374de87906de6e48bb485f68149716ac8233c007497fe5998539e1432f4d91aed9cd5150d20e7d081bd392e960db9f79f1ffe305d76d91ee02d3ebd395e54fed7853721b59bad20e25584a63475a9ada4297e25f3ff79c,
  0xb7c36f2fad5a1da6fe1c8f6a4de72291faa4994e75b39850c5300feb518fb3bf662277830b21e192bfd2a4739f78f0ef83413ae4fc75c51a06ce5a40e992281a75bc262f9ff90ebe7f15c7c7a4a64b0b74072726660ec5d04ab669702180dba6182301d995133aa8b3c48941e56a5d827013b12de1a838eca9cc94adcc03d98199e3d7d78d,
  0xdf286ac994d36aa9e3c12d6d94e71470bfadc4c39cfa5d6b70b9c238eab2b2a70e52b232c753da7a4a0829c0715e9974caed95c2c2021505606c2f40a516acd52083812e247deac8061306ee06f1074601d9badfe8f7e5a3bf8ff75cd00d392465f7b04476fa7bd46196199d11f8e2d3792cc17af0a35629dd37f1897306e14dbda1e4dac0,
  0xf14954ac7a655f3ae7f3c0aec310fc0ddeac55acf7a82954b5f87a46ffb10e2ede2f3ea5df859d4573af97fd3d0ef984055c5f3d146b93e58971227d3ca647e771dcf32216b47baabe4b1292fe087a3e5b5d86733629c5b8dfd5741a3aac8d2f58961bd0088c5135fb8b42a0a16246085d2a276ff580a7d68e07bbae85eb8c4d6bd94e88be,
  0x0de6abbe05a5dad1a93929e89a34e97ad0d24b8ab60284ea53575da90da5370bd9f42bc4c4f1d7fe3be738de4ea9500a7dc4f94f3b9f5f388600ca845a82a7119094cffc1ff63811ac5bc2669f009d23490076f4c5e644bb4e4ded66489e5a802efaa1bd5bb3ef42573f3b8720bb1b5125222c7bdb6aeb1b524d4da0193465ff4c1a2a6eb4,
  0x5548aeaede214723ac7b8a02fbefb676e2cb8928af79160045dd8891007f3d1ecc49f66fc32e26fcb436d4d02367bf1ad23fd1017f5b1beb05a56f3d5abf735abe33eed3e2287ae8fefdf01b449e4b5a07d4c75b4bb287a5fbd2c15543f2137b6c3d7d80656687185cbd8bee4fc9eefa5c5df590e7348debf85ce2a3e560a35327252cf914,
  0x039f5e5743b94488639c1db512a6613c0dc1599d76507fcb8e1fbfeebf575e8ee7e72773e453ac0cf2950ef1509182d652cc59cbc3d304719ec950a24360f465229745c849ba518273964a0ce236df27d67ddd3ba3c1e34e2401fa1269b1fb23e3618bf80f4346a4e9d0a90e740b35be78eca8842662690714d211163d56c877fdb2acc870,
  0x36e44e7e441779e83edb2dfb5f020616b52ca9ac70638536877fc851b501ea3d6cc8c31319a770aef7cb4c3fd42927ae6461585fcc337dbe9477d064a9b53880c0f1fac3342abbe1932aab1e75f64cdd68cc38867c470c70b5fb646fbabcd28bdcd1ec99ee6f42d913ed7ab5c03702a58811b7c63aa217632951bbc9655427e24c4451aba2,
  0x7b25111b404a13aa14b7cfc9c5fa0c3092d46cd6cfb5a9a5906c74d25d709d347804b34bb154afb15ed129cf4189286131e9be4cc5278fa0800dd3becb49fccab91121ef2eb0b9b7b89367fdde4085600c1418af201d47feee86bce69e5d439fe5964c03fe6c8efb4054272e8fb146e2e4493c365cb441be447871e3f9ed25286eb5bb66f9,
  0xbfbd7f35f3c267c632556e1bfb166d19e75369c5eba3f31c7084110628244068c10381495b2b48fe0e9ee9173b1a6f1953020cc57d81d1d7ec1748a371ef9f8c4de033ba83ccd05ea5ec2a3230681a5cb06e2276456a01419f39b12b59f7c917a5c04b1d199e0c617d4a77469755f55d32c6d44ed5d53788a8ecd33191d15718a923c93428,
  0x7cd13df2310eff0a5430542b1417bf6b2067e9c3395f13cc54a54ca2bce449a40d46aede56167e99babcf680da0c5a8b7e0d932cf0262908bf3be1ed39639dc16a36442f3e2f39118333ae568de46bfeb303d64bc5cdac5ff41c60badc84819a6fa808e81fed8dbf62af411cdd5a0acd149515d4744787d112883420be124bf940d6fde96b,
  0x981780c5c6982340e61d02c39ffc8e11aaa3514cdc3c1a22fcd8b32aab335c49af16c9469c199bfe3a5cb1978942822b704a4e20920555e17ec0f77b0b446e4ecd40bc7042dafbf1562f15dcff04df3ca568ee52e1d03124fe3059954c513af3a3750a41eacff4043a9617868b7f28dc1dce07f234b145d4bbf1cbdf97c0dd20f96ecf1eaa,
  0xc9dee7116830c63545dbe4930016186b1cb76265c6360eed4464aa3e09dbfa19ea652b6809c8794c9bfad21d1f50894a7fbf4b75f5bd99235007546229b1b85fb6aaed0c9d5272132ed8d6e68f56da5db92c0d88fd65d3f1722dc836d7c7f9d73eeba5645d575c01fa010997dc7b5b23de4701dd2bc7460a5727e2e9b51c0dc38e7ce6382e,
  0x9815e93965b2243cba58c401d05d8bc40953ce451e0b2327dcb6e6caf11f266e58c2424c39633daedb0b165f56780844ca7f182704820767f9d16a0f017bd4851feffa0f6df8eb65ee63750a39c99d34105d698a8a9b8151810aac24f581e4c43eeb9cd8ecb3eca0f97310ee0986241938592862a4f68e7dc7a164dba605768562211f4afc,
  0xc9b8dc7f64613e192b7b51fb0ef3793d452e485498f94d5ad1bc256a3c35b739ff6885b537a3e606b68d1c60058dfe4bbcaa9ec769708502025f3a6f238b849bda19e4a437f8e065b666b412ef8b72a8fa925ec3c4f0bbf58966aa9f9c7c0764c8e488d0934b5ad2f0bfd1640efe3937fbe24ad3c37d8db09a2a34c349ed4e4b206760fcd3,
  0xef8643305bca234ddffa8a5c70a1b050297e7e91eac4ba8b0d6349c8947e2fd64afa7f2a7e41e8f4dd9a9782d7ccdf83aa4188ff6050a78d5cf12d54594afd7a63122f5ba7e1a10fe3b1c5d99b966dec1cbf84fe37f39cd4643f6e2d60dcd7a01ceb77f3f06c1ae1e71fd26eee4e6d6b6b3348fb704ac5a9ce00664966eba020147ec30c0e,
  0x47b029ea62ed389d7e2b740ac45109c7c6303f69b6dc3194931eeb2228227b7aedcf2dcd3ca6ef94c7cb73988db67b0a0339a97ba7c8f8aaa1d8bc8689cb27bb29ba2bb651b8c4694c7f5fda4a946c96311088985e8f996881dbaef52a04faad46d13afc300e33a1c7e365bd044e2c1510a2b91e5988e2d438d0929b0c2607379021620a73,
  0x9de8a3e54ebb01c5868050f44d63f353caf46e6492f0ac39488c1fe28ac3dd9d6aa69f7a79d71f31b423a0f264ca77cb8ef933642aff1c154f013dd4fc737911ed3d63a74f0e32eff93e934c1afd5ff4a19dee2f4213d43ea7f1175381a39e7170a8c5470881f775949359d8d91668f58d9916c51c82b05e4e93d6d9959988fd5052978a88,
  0xe889b615f0ee8e23b0d3947873c3b1e4f2a7f03855423fffef2b985db1593c9da6e812ac71b02a0981e6fe85fd3c3fbeac32c53c37f31557f2055611d9d2f5b6fd2988fb666d2f88c8e584577cf8d74b1ab73fa5ca53c21b77199098d0528433d1bb5f92f8b8abf7ac33c198fc2f7471d8fa75e1c801bbed770da9ce57d820938afe1d0d57,
  0xc2aa83b83bd11e5f51913d796f6a019a7f7e2a9de1b8b5d4b753271b35bc10c7763b51834cb25e6ec4509ff6e2bee50e640dfb43fcb9617607f643da515d987ac681797fb38b9c9cd14498f7a4ece2fdb6f83f9a8342db97dd039c0ebe3873fdead3a438412b9e24dfd116245467c184a22af7d6b73044534045d9ce53cda115957f3dc0f3,
  0xf2c32798059dc539077c55e7dbc1367088828f65d9f105dc1b1999d8a904156080ef645357b908ba78f53637fe17e3d113d18ff51ef4d35653ba4fda7fc51da1423e26c1717519905248de03ca68f31c6de7cf9e1a2aa025c3b67108404c29c6c73da49965ebcc5133ac8d03814d88e231b84c67147fc9c1daf331789593b430661efd7acf,
  0xf911060536f9e33f0c33da88819130290e9a0c96459f0ee476112d4f661b8e59d6e344cda0adfa20ce37f40b298381db65a617b87ab9e246fa78f7986852f6be5d88610b10ae93358bada898f47190de277aaf19770cd652a89af92e70f2e5d8df9761b07ff63792398724b4df4190c44505c74d1fc5c4842e8190a9145a6dad5e90013dbc,
  0x6ab8ebed76fe709919bfd8318194564d5a7290a8ba2cd7903d5e4f280c8967663462b2657aa2629661cdebc603e6945d99480fa152c005c694aa9182888d159d9ab3a94486bbfb4e5a8386efcbe6fd2494c59da92713ec32ec714ed7a0ba020aa25cd315bd98eb51ce73e9f913f6c0f30b1b7887d6eece143a8ca0e4220edbe3364d0991c8,
  0x902d81d24d377f25abb1c4baea43ab37392806ee7ac25c898eab005a8a4d99e4f942635cd4a7171eeadb9de4f62ba2a71e30aa6a5dccabf61bde9569a969e97b2510d4bccbc7827828ab2970810090c9607c21eed720467972f0b94dee5d372ef8b42ef4c624050dd3369004176706146a3e041bfbdd4ca9bc9306a4a7fc4dc73455fbbd9f,
  0x15cf675d133a818dc66c7589451457f040167aa87f5553d9bcb67d4061f13311f9513cedb6e41ea99cf24bc9a5c9677efd4d7249c64136516d4763bf51174dd98a75920d5586885d54368b4fc19f2604966a8c0c7dec3744927ac7eb78521811a2181416293968cc8cd8b8c348a94cd0eac1b3d5be362d46881f1b81e532c9aafd1952d79c,
  0xa38bce9d9c8687a6bc572ff806d647f161ca376188ab270fa084992b98424e964200f8f40d0e7c250db9777553b6fc67aade33e39283f61902ab579d84a85fa487b5376681c9384062edabba9e68101fca2498c071b625a3cb589e40418e157a33ddc9df6a5fba2671cc5e6033513a704b83b158d66ed0f628b9dbb2240b3ec29983ca3bfa,
  0xf1638a71f6aa710796323d55126ac64b5d3af4ced511fd72f632ce7b2053393b6d62db3c87c512a7a8f37036ca5af8a0b0cb2cd879a971213ce0ad7eca5ba65200854bf1ad4e08c5c98ef6c68c88750eafdcde2aa99b27ab38aad172aa59c6166f40a31990f706fd7aa70b56e1520feb626d3dd78bb43971baa41f2dafb6bdd993b72a1999,
  0x0db8e3cf8208bf7fe63662b47a3d23bccbb20dc7edfd7a614a30a3dca252e2e0b958cc5b0d6b73e87f8c30980a036634032c8291bd67bc7e0f1bdfa91a35867809d55198c49d69421b6680f269b0b2d111a5f99b8e885abd1a074e1a30bfa02da63c0d2d363609a4b91b882e88a46e738fc8ce6d68becb02fab63eca60f7be30f22650b95e,
  0xc874fff7aa41a3acbe733cd1aa4daaffd19934f5eb4e1415d5b97de350a75b959f483f5a7cf9de11f8df296bce807c0c9a0f6d911563d4111c8a37af70da297d28467e06bbb7c58369afa51e224c2d372e695da39a0a01c424d889a5b85d55ace35403a1a3471b5274486a20388953fd5c2592be6ca8b9d4ff9e7fe6221defd274b3ff9c8f,
  0xac391dd2ea32f72e5941d86e2499d2cb03520ea3ae1fb78675c3181876b6e3ffcf3dd3309fb4a9b88ec6f853671811a892049ad19eb650ae91cab1b2c43ad078a0bc48f841ee210948a45b3daf7cda43472b64489bdafc9bba4d6c21de52e3d10eb5ff06d706c6a3c7c6d11e0b5ac31c1b52fa2db0b815a779c73131407c4c1ccc11f30d51,
  0x29d472ab5673c4287607798f22191864bc4dad380e8a524b54e99536f802941f8831c9d1213472c14d0ba2d7fdab3923ca3ff6b9d44c5c1369a539e4812852a4a904127775f3a512ae5dca237ca278c99f22e376b5f34c8356ef9fb53d63eac048f46a8638a657bc8bab99e66fc33a9fa3fc1b6f3c550b61181ed67a2f9f71987d1be058f1,
  0x4854e14305163e1e145172b99b736c68a8fc4c8d74dd7eadb13d8c38da1e35e9c592cdee88bec4c9d7f6af11bf56ec01bceaea09b57bb1616d596c817b29368a8f2aae445cbc9024c50aeb74c09f965d4000ddf3754dc8c3692f5dc81fc723f8a62c12f2ae3132dbffcc5e78fdf6a23e91c74033237034b4d74267761fc9e4ce64b405335e,
  0x011ce820d995edd4214e240beb1759b5139cf1af09b0f9655417fd3c2d4a96e526181f4b8c86d642cf70652b8f5c57a516d7716ffc0d572278991c6eb2e8e6c2b6c6e1919aee1ad9208efb43fb366fc12a0262515c8b89ff676f51ca0fba6f5a4b896e628756711ce3d2b641596bffadee8415bc7407f6513544468d2c20437d8858d066ba,
  0x4c36be734cda640ed8c086660e20536abca0b22dd4d9b885b80c1c42c6c5e5db8115dc4ec779911856c90f07c5aae34e176b90ed56868a8928db5e63465f0933b028ae009cfd948e53eee69934e8ebecc2fa9cdc7830faf5260b0aa413e88355aedc598d695840b6f7edb41b7da840d989290d841f6470e5d33d4f363c78f58237214a9354,
  0xdb125fb9d10eaa5a1a9bcf471c4130676c5fae7688c79da284bb27d4e9f1185568b9af6e5b212278ca5567a973a7d3961062c7dc24dce19f28df3794737325eb6ee41c02e70abbe9f1b872b13385bbd928c772a773b96ae9eca69577bf041802c0b66e48d55dce0b9fa43e5ce14c92143cf2b1c440b4832f70a304afeb8acbf4ff7dbad59c,
  0x0da509eb698aef6b8d80afbd8aafa47360dd902b4c5ed6f048284876bd2c24969cb4de40333ccba8aa4816e5e917b030839dc9f536b7a2fd690259571021b975699ee45fdb1539823057100cb04b2e6735bb8e835649d2091b9fd5664788dafb27e0c49838c56f4f208b7dc3438ee5e4b7a5372db8ed727b6412e2ae7f42f2ea8545190ffa,
  0xae29e222a71067f26ff771e0bd2a20336da03c36702282c0a14a4422d5e3199acccff6f24b3fc6fe2b78c4671b035b62e413ef53f0826ba52333773337f69244bf11ebe440af2d2d4a87f7871128d94a2d8ab42fcf9d63ea4704efea38d7b2d45defc1924cc6bdf8da95fe2b99aab1ee81d2a61a23b7f2627a58f8b72a0d3bbdf2831f484e,
  0x63a7ae7a566182db30b0819fa5b841edb1b21e2d73b748c57f5f3e3305066a29674f667e0be90f68b86c89336674c66765cafe012b78261e7973630adacb712f39c3f6157e80e19b0ea19dd77cc3f945172401dbcb4516c54d9cdae8ccc6391da9725630481156e79e949a0794ef9c517171cad84ebdcda1a44476af595bcc38d1035e96fb,
  0x61ac672923a848e92dd1c2dda339801b668f8a8bfb30f2fe90f3536640dfdaeff119c25d4d744951afcbff13c4544c64c5886d468ce9960ae270a2776ce6895090ba62be04c26c6059eafc0aaf20bb8cd1826c755835a7886536e16db410baec16c9f523d4dbea06b1c26bfb56dfcfe315219c6d39b1e12f9b60c18db78f2cd28b12d186a3,
  0xd9f819ccd21cc004135dc63c2c755e21d94579713c171efd2df153b9aed147a20ae36d53fc5c18c1fc301e7f3742e8f65a59ba27d2102c29c7c4845ef6b40adbab2696186a62c3d2569019cd598f3336057ca2b7d89b44e27df2d34f7c2cd67cd0335d7f416df4cbfc267e3011c1eb03aceed5592e84a136706b2fc40e673cdece387b3787,
  0xa639419aab1654000ac061994686119a1e0ed23d20ac45041f2dffa4ca0632128a106ef1980c1a8af06c1d824d7c7e0abc757bb9428bc2ad4c4d395ea0efef65f260c2c6de5a40e36cea310b827c2761faa1235aa2e312d74c5b3d81cd14b68e71679c01d7f94627d00ce895be5918838fa07967028811c08a39f6de38bf65e9fb1982691f,
  0x9bc1f09208b7d6583da83e4fd21165bb2fb66428dbff6431a624f0d2d0c71308092a3eb0c7e05818352e69d194930faccd5f6599c54100d17d273b9a940f380676a19b5822836baea812f4ab264accc32f8a4c1b99891aa0b04e58d8ba498e28d7d874cc53e65ac986211f54883c3065c34f240d5db0578f10f138bfad0bae318503ced111,
  0xea6919116805a830eda81b268827e0a94f81d1d864b8bb83638530f9cf2d92a7dc2914091feec3deee41889c741c52af51ed5a924b8ed246327b9985d5423770a3ded810d4ff9d07c4adc8ebbf43e83d88b0caf3ae2f865dc88da78fb7d67012e63af1e64bf77136f5c4f003336a4fa6012a69b56d0ccc3856a86f44f9a37220c14cc08a82,
  0x68e574085d86581915a6ccd379388f65967186f6fa6dbba26ea5274add509fcc744f0828778ba54b6521c54cacc65b8f94d705925e36ed7fe66a118868e6ab2227345aeb973332469c457e537f6c540f70ab00fc7c96cc56d8cc6e96594644e03dabc148b0ea97551c5dffa4706bab0c46c49f74636abf8f5317a1a39d619df5fd38c00f32,
  0x7afb34db9790c112ec87d607db404dc80703664daf6b59a557f7aa1d79aca229adc0465282bbe70f297dda2129ffd938f3177f44d4546206051d19c41787659504205847204a8a1d099eb9cbb1ecb7add557d0b433a16f2a5ff3a80862dda6a9f71dfa2e6d5c235d82a69a3bba5a9081ea617936aa383b1603189d6d2c25fe3a95a19c9e82,
  0x83aa7bfaaa17e22ce508e0633e7e2a642e82ea047467bfd7224b94c6a9ff7bbdda935e55e4aec53bb3f93163289c44495fe223c62d492f9bd5ca0216fc5b98a6401165f34228593f3647f50fdc002e8a23b7f2d4a762bb722b48cef7a02d90d9a4c2882b6d9f9b23fd494d4517d7eb664812bce4564e5895067e9332d20b67809c05af7f9d,
  0xbb9b4921cc332a706206218f599828dc8825f5ba439d309a3f8defd99ff589ce40e06a4c87f6d132c59abfd158aec382d7ce680ed19ac68ea4d9b190956f235455aa38ad3f2e55011dfed694f7f3f299a88d7d0e116ae3d615ecff7c7ea77b0a268c2889d4522884421be74dac2075846cf6a2905ea8d94cf5489478df83e055b9b49b7bc9,
  0x6924ec412e2dab1d2224fd80421a0caba405f881ba6a9cd0dc3f7b9a3e79b00e5c66286a1fab40591c00aebbe07d7db1d989e007d3f710172aace395826af7aa5d28aab1c598f7147e06ae94d5013d650076f303af838776ececc3ed1fd176bb828515f9bfcb4055376edff0ad069b3a2d59364199a2639651b92b17047d3751141446aa55,
  0x9444941dded3a0b4917b2ea191a3b019c7e9a8352af6be23f7b9a7700e8dc46e506178f5965f63e7758cda594a731ad12135e02604785a0f0207d2e2338ac8b8771ca430049880d61302c2826c8f9400ad4f430cf055608ed1d82570075d794565b7a033a753402e026c6066c178c31b566ee86553576fe8ad61e6f6785a8a289d5b324b5c,
  0xbdcbb87a422fb27aecc1863f717c1dce53f32e726556abff2fec430bee005ed28cbc5890c2bb0ab05f42f1c09baca7ce0c22291205db58b4e181c8ca13f5f5dc15c4696e1be8b40d6a149f1452a5bca874857dcc8f12c73d478df55f787b9b4a4e88f802b1aa9e24f9cc2d8356d4448b2c1c0300b86e79d022c7a47fb2cef48669176ce79e,
  0xd6f3e77d6a7b3bb1ee2f612f1c7f066ca6bdb4a1ab4548537db06bdde11779490f3b6086ad1f4c6fd59f1c29f452c06630007b863e826f87d161448936551c1d2ab3f0a2637ac7d677edf032991767d95e58d46db089d12b449709d40c51189c1f91a883f680ede10d68caaf0089745f94d38ece1fb39085b54958dad2162919dc6ae61b2f,
  0xa31536b16865562c7455735747a090655049a7ab5cd7c110d7170476fbbe3816cb0e50b3614f38420c6571b2241bd9a524388b4ce232e3be374204c04710f9d7753a3996b083c925bebeb6d7dccbd629547787fe6078df31912c40c667fb594c3337b560effc1598a6c782daa701d9e943ea59a9db7471d771fe2a3064f8cf0ab9055bf9dc,
  0x652ae23aa8a13ee5a002f5b51985f84d3db27c8839e3c48ba966ff045aca1ed1b2b18765fc9699b43e817d48356dbc9e75bb4493036ffb445a70310a8312d7d6e860237c67930858fbf4a70de3f916c840b5ad031a0315ee62c2f43a9a745bf02e85cc025e8a73c4135bef406e70985cc2daa0d671c7f8663514c7773d3623511111ad89fb,
  0x0a83bc9caa7ed52d9b3954be9bed63365fabb98a442b534f528eb7bd3c9ab4f9a3220ea25bb8fa43e58690c8729f98acc3af34d9b8a05345413a465d9b4e3aa323f48a90a1ed197529add00b8d4ea05f5e750ef2c5289df0ddab84a058af64c3c1d05d6ddfd0db4f1f186e8f9cdf7b8d3151d640170fff24d6eccf18fca23c736885dd3ccc,
  0xf9ae48f627017e44aa4bfc9248c16b79c9fb3252914a31d83ce21e5d08f5b62be54514bf079392f4b63b200d9901d0a4ece3329d18efd4afea331e9b1c8578466b26630d6fad56cb9a18ffdf3f24a456bec46ad6fc689360f550f2d167f7205b43e58141d480a0ca835000d46ec0b272a0850a3458bc7890886e10f322d43ada8ece26771b,
  0x9d06829017c46c1a9adf5a53ba41503c77974bb91f70570eda0d1acc5723086b1e47ca2b25a3d967ee26a2527cba73d4f9cd9a0f5dc2b3c3065b1f958e120e7f016f43ecde03e6fce67fcba2f767c804ceecfb3dc32741ed9f8a6ce16923ea0fa24af36f6c23966e55aa1889fa86130682323e9f7b7994e7e495f684b8e4d22b5f5bf19f3e,
  0xe26633a350530498533cd86798bcdabde56fbd6000ca10ef5162d3ba60acb5992912c827f62b3f35c6abceb819d312bdf638f511d8d408f20f89e335a71d3ddf2d3568284bd90df6fed018c25fa3586a2d16f74334de50222ed3f61f2c8dfd76f1b8af516bea31cf11bf98f2c739f1415364d7689e045e25553e65817373de7d18159fabdd,
  0xf2a3284b5499b9974df5c7a7aea710e46329903ce074c8c0957a4d86988ce3140e0cc08c0439f9a8143f58076f68d814bafe2d0e13b8ecddc8dbffe30b619a012c9ae50c234e46b98fafbbea60c77a5dc252045cc627cbd88fe4edf739acd828d6ed9ce015bb2dce426385da75d9861c57247d9099566ae6833bf88474f606b7019b486b38,
  0x362be816a8888b67383912ab914e53a00535e49a5969e0b91c885f1cad6bb6e21a6033f5497dfed40fe509cdb76b8dea5e087143e14a668c75c259feee92c1ce2c7b595fce5fb5ca4d7d41c48ed671d66d5814ad4d9eb00f7914ef7b8f8bebab8d5a3dc8d0d836b2b4bd5d42445c3a3232bfe7b22302f4ebf5d7764eaa09be2c90bf348182,
  0x89709e19f725bfdb3962454775830aa5d0667c669e4050844cf21e40ab494e0c8740874210d27c63fc303dfcc07f0c101b1bdbf2ebd818bbd0cab0787f2991e65285e2f3bcdc45232849bb3dd80307b30fee8b8107e1d484886e46f3192c9fde2854b3e3e513cab57fb9a34db1b31de9d4199c48a9d0c61a4263a50cb7ca3dddb8e97d65b1,
  0x4fe95b44361ce3cbb41d378fa0da4e7e7bc70f35c9f5468683fd4a59739468dd5329b9dbbbd08353b5144394e42e40ca83f2485e35a4fe90c3d67d287ee0260205778a1ff507b7f035002c193678421fa7ad3d4719bc4ef73fb219f0a6f564891df05f5e8bba19b48fe1b5982c19d6f8e7ad01ccc0d86068b374a9c6d762bce7939d2f22e6,
  0x658f9f38cd197b5a24c1f174cc3325679649d75fd4112c48016a976db2eb79d7642e205f0447aa20b3d7bd309f3d661a34cf4a536558bc59cb772b1fdcb8fbf3c654b624b42ac0e34450d40be01219c1582f8ee9ac830d26c99833132cfaa87eeb5ec59fe82b0bb39a2b6cdfbb6d666c750632e21936dba1182855bb10f89babe105055352,
  0x2615a6524c8e382658458a5f9c9057ba473f9100ea828a07457e305999c6eb1190a9203cc34378516cfdd8f2c701fd9faaef388156928af8882898f32d1a9acbe85d582157d123807763b4e6187a26a889bbedab538baa405fc82a549df5bad77d93b011d54a9942e25bfa8bbc1bb0f379bced22d706d6c99a84a15e2f348debf4a8940e2f,
  0x706474758c7e804536e40e0e202fbdf0c1f6470abee0844287148309d18ebbaf583f019b796aa91e4e29dab486b887149a9f4819c81d7c27d997d0e79d88d8926f8a596245fdf4d56efdc13a04db97f4f35bec9ed6548cf321e86256efbfe3b8c3548a2f5570bc294e42f05d0795b98e55fd7802ec78314f38e17ce06b0167359418959491,
  0x142562f838f226726426efa3613cdd86c9d379d0b916e609fc090c03cd83f72f3cbb70ea70308c4f5e782afce62db095a7788cd0d7f75f93eeb66b1c141255052ba04611d03b8088e2a274435a8cf16e1d12d83873722b96b1a600ff0636e879b1f169c7fcd97692f0e85b6c698d095eb5bbae0a61b4758cac5f2801b458b56c3e929e0384,
  0x85dd91a95560c8cd38d4a0888c8ddd0a0f4d309451fe71070597c698e08141b4a0e53ae94ba4ea27514cef5106cdbd8876c0576742888ebd11c08d3860fe08bedf291686a1f66e34e69e170c6f981addd00e07747e85ca3254b994b400f53564e9213a415642e2728db694e7e5e0f1477fe8c67709498a53fbb244fadf43e94946bf6c665b,
  0x5cef7af5d2cadce20b81d7e1f3bcb3ba91c4a9dd1b69b01882d73ec25220f441f45b720f3172606d3d40468766f92a265893af923e76dcee383d061a45560766e629b83d633fe874cc28aef266b1f0725cfba28bf3c5b29f0a2689bae1815b407e9d2f5e4d8a267e4030212840c04346095cc8b0c5dfc6e4b3a3b1f2f5359b9fcfee1788f5,
  0xb7e9d15dcbea27bd8bd602e6c74047582ed5550b220e6d319b784a160531fbc5e4093b3f63388f0d0fbf00b60fa769bd55a757eaa6d747e68a5423efd0a85e36bb5a66b6fdd9228f7f11b5c5ec6e81f4b65ccc9c9cac945c56d1f5fe00bced9fe242ac38b0127bc1e84d92557b5e3e5dd5f6fb9068d5a10682c9242b68c5409ad4caf072e6,
  0x6fe1d318beac3e4c8742cf82303fbcf65834cb4c77b1c0334abe335ab4c91051ca35a7497ad381805d721d1270c94aa55eeb555baa38f4ad9f8ef6a7d615b116528590718123eb5aafd552f3ff739741c26794033d2e3dacfd904ecfc51ede1c547602bfb2831388009de0b2804b775549ca3243018fae03856e24e521a4cae02ce81cfb0f,
  0x959fd4dbc758d672a7f579bc5678c1ce330d80cbdc93406d0ef8e23d6e5d2da15c386e297d8db2491f08a26dcc09af296456c65dbf470965f7048d04d70d07d4533449e4e92bfe1572ca0675963d83cebc14802e359aee6d621f03a81e2ebe1140d2beb9bb9dd498fa4b2c4edc5b6da1eafebd136cccf04f9929c6714f9107b6ed8730e457,
  0xb7d59c0b0eb142cf6dedd8bb040544d04c431cc911a444b41722be7f56e91c4cd1adb70b861449545ec63e1cc7fe50607aa73a521993a7e47cbc0ba79f06271a1da3596c6a9d5eb3a5e53c300351c6fcde86ded901544c51505238f3000d4e18f3aabf01c21287d7540a14db4f27c990705b4d4dcb2444e37809243b7279364910add3455b,
  0x766cdcb2bb6e24bcc8754bbd6d4a8a6719b18298caef4f9733526392c492b7a7aa1005708aeea425b35aabef4e456a6f5dfa6fa55cc156f09f5b57048142fb3b353c164670f0164a31165eaee5325111ae543a9115138acd1ffb78e2a465e16c12656d423509b1ea87e9d2b77c824642c9bf4fb105b69375b110e249d525e4a619deb2c507,
  0x2133e9ac472acf04b6354d90df88698094b7cb815a99b7d9a06556f4fce117354e0c1ebc47fdc9bb0621a7219065bb7d86e1a9fedb0cc217449f6c63829f1016181909022d0120e632d5dd7e2766d06245296387c60ee51b28e8bf04804f77c0b08101ce829f8f51f70db7509b42160c28007e2b78eaac33f1d47cb122e73966accf41eb86,
  0x29c06a0492f2e43c5d3f06befc1dc38a849d2ee76922857583ad94a98a9486adcb49cb8cdcce20e01be2b116856cdf31ee24f1cdb9c79c14b6e88c567e6b6ee1aec13c0b805ad6caba749b6255ec0431f27322732b5945c0e3376875a67b1868c45f8aa396c85e98ca7242503049bcbb2ee1a3e13a761a9bb5a97fc748cfbb24d4d6b92257,
  0x84200dff6216abaded749d64456a42885bd9468d734089dd49f13480915a1d6e79dfc85cbc532015f06b400d6ee490c92dc71e893afc12ea35504ac7245393c5789d4b742b3e894ba25fc4beb3a5506047c39fa2f020c8bb528a0452e3e3b94b0785ad418efd121f7c2678dc8dcdce3e18ce119a1ae77dbb14c090fb8e52d2a1cb9f240878,
  0xba4a152fe02c3b86c0381cb2925d582e762a73b9b62e909d83f1c7a1bf6897b430bd3f795a6124b9afa718184b165647651bf917d224f2f4f5717aabbb8b74b4d2c6dc5d44c32a608c2eb62fc633b936a740c13dc0950db345dac03a7d8289e5a142124c97adebcc34617fa7012a4c561a9a13e38a4a9c050bd285871d41bad9f119adeeb5,
  0x47d3565768fb6b16eef9c9ae4eadf61e8aa510722bb07ea4ff5e1046f84ffcfc37fb5f40c0d107e7e3e9ec13c1ba2456d9c8c8d484e5a52e8cec02bd1eef4ad9047bffa09ec3f165750fa8d5dfe50e26effadc682bb8374b094f5300822ad2d71d2596da29ad5c0530d98a1521cfa7fada2b73d7eeba1fa72e1c0b995e25dbecef26a389f6,
  0xdee59f1076673a6865cd1c8c8238a8d4d8dcdfabc8f6773d46b31c191daf49a602a13eb1b4c7cebd0091c1008534736811525dd78ec7f82e24e4fd5c4c2646184630e8f9a0762014bfa3d926d404ace78c509846072d79cc68c81ba7120b3b663d6ef6181a6fc2259585d95ed167f4a2d7e1e9d1be72b1982b2d44506c3c40aa89bfab8a3f,
  0x9ff75901a2994e67082270c3249e02309710b848cbd854846001ee3190de6025a92e25f826cf4b599035b104341a5daea7726ce9b849fc93c6cd40f34214c238d7ccb09290ce4746266553fcf5c326212251305e46ac08a0df95debb1073bec9c000bf14d126e70fd72f7b2c17bf64bb03b38ac4988318b9fba54780ea96b8f2e6771d5dc5,
  0x465f672440059ad71f996397283d98fad74e9570de1ad63a0daf264bb35daeb7970e9cc4f97f578bfd286c505e7ec882105cf02c10d0a0acdf9db0ef9560578a29a552fcc841684bbc667be95fb856990d2359945e20bf896f8f4edafef18143258953da85e46795fd0b4c8611c9c7d7dcea59b4fe1a0cf94aeac623f450e4abcb53386231,
  0x7b294034f6d8984369123c4f0eee1933e84f2bb904192d1561e989c5aa5717a3ab9a869cc303bf92cb96261093964ff1e615f9042623c3b2b289a20e8deeae6a1c5a56e14a20ff76fb95205e83544888aa40aec7018a1c043ef8de93f7c8f011a9eb7343c1d66df43a716ba370032b97e27958d2b53a6a0f208cabf5d02d3bd3907e3898d3,
  0x63a1226ebb5b0c94dc0fb03e4b4a5e4c325ec942849f5bbc98ccbb01ac24e12d0dbcb151dffc659ce1220635c8cbeeef6ad1381c3768e728ba2a50a372d2fa81a90d2b5145bcc1375f4655f3229bcceedd10650d54755d59a8bace1d5e301846ae3d1ca5d70beb3ef4fa5d1840570f6e3d55eefd81955fff13a8d89f3e1ea66105cac681b4,
  0x2f3103fe5bae73ecc538e40880332d825bba4088fdb678d26356a030df402f16d72b031469965e899da558e487ea8ef59aa4e34b73f01e5a4ad19d85151f03620213fe3aba3bd3ec92ff6fa455495833f0751c45da83e7c9e791b1271c2da0c98ea46da1abbe10d91508aa8d333dc2ffedcdd5f48bb7e97a75d329a167efe0598b81de0be1,
  0xda7c81817cb057e2249f75cca77d98604a68ee63e155ad52285106207d2948679298212f6698ae13d5bf0ca902c283673085ed5267b81e400e02cca929821ba98bdb055fb0d54ba05fcfdbb84adb28ec6d06daee6baa57c574db9cd7a0f91346a509e751cde15fd3fc1457102bd841e00e6afe9719fcf9efb8fc43ee348fe105439791a1b9,
  0x1d0f51ba770a2035ad3c4b2357167f8c52fd870f65290b0d827b58e1f664f431236b8079e049f5fd193c3c8905e54c2c8616eb9a22a288bc3586465ce863a4fd310c0b88baac745579ceaf58103bf5c8ceb3798a5b010ba4666d29ecf9e04d222670cb03dd817194931104b448c7c59d6eafade828f6c8a2be1edccdaa12b983ec1ae2dff7,
  0x63f41f66060bd18e20f53ed4f00d0f73622dd96b4bd195049b35a386d1b728e8fd3f1f0d867391f1d1395ad230f5456e87c7205f43d267389b794b8d41503110bf499a7eed01e51b49544b4a1e5bc859644afe5b81db6147946bbd8f1efc15c530c0d558ff16bded524e8002bd40fa40eef3dd1db24e344f2aefedb6d308bd6f67b282e046]

/-- fsb/src/pi.bin, bytes 51072-68095 -/
def piRows3 : List Nat := [
  0x7dc416bc1465138634a5278ac805d7ef18ce5fb909ec9314f8fa7d02f814ecb642ee6e7e14ead40b34f8d0f0ee340845c2e221d5a1a220f13e59867178f8b855a0ebbb6095e6b6cd026752f8e530f61caed2d84c577ece3976c695300b9c7d1ef81d388382104bc3836f31a8f9d71d3172ae39516e262b846993cbd075b63cbb7b469d2ecb,
  0xbeed88b5a739e03315f5c39fb91e236fb261795aaf6c861d69ed1bedddb21182fbeb38c9b0dee667c1940a86fd9fab72a12b36fa649f4770413886fdfbb4a2ca0c17592b4e9556290007eb2678f8ca9483d75ac02a36027a5d783f2dfa90b1fe615569ee37d7db476cae66c426c1cc66951e403aeaa3a1838a58a3a13c9dd5f610f57ebaf7,
  0x50b38647960c92169492579b012782087bcad27af3df039c83c05af8102d28a9379d41c294389bdc5027c74c0641cdfad10285c5222556fe4674a5bbdc9a8352444ec16dcd6b1eee0a17d9f285f1ca604f75858d327294fffa4d8fcb83fe8f532836f04b1d72da57482d73ce9e7ddeb3a2f597741a12e74b8eafa9fc8c2cb8656b05ca293a,
  0x13a3d3d45dc3b88a339faf4b880a31fa56f7977871d6f387272c30db59d562977219f8a89caf167e7632b2329f94df678bdde4fbcbcd77d1341a83ce56bfeab492a8a09b95c5218f71e02ce6798647661ddc12c080f3d7b2d2df1282cf2f6f15666f4a77e9c08b6c21a662fcaf5e79fc74855876863dd1e86c697377f75672aa4ac9be1247,
  0x213d54baca71cc7a0cd568293ccb458828117340d11ac6beceaf88c9bd4d72f5bdcc276d8e8bcbede27b097d0d2cc5e5156150848ce523b37c5481ea63601b684762949ed8ce5d73a6b2d1e2af1489a4bf78b705158fd2c181bc746cc67c2cc6618e39ee3669eb289c84a12be6edb500d30b3bdf2f8487abc41d217c5ab0981bfe01dcbbf7,
  0xa145a3f73d0b27d051246b56904e948937a73efd1aa87a0f74de67647169c8138cac802df4434563c814355d481cbf8f189f2ee39ba0302dfb6710fa5abb21227befb994a27577d562a69981e54ae3684e5787dd50b35761bc5ed12a19cfecc32bb8b195f6a9d992444049cc9ce396f81e56b0dfed0dbdfe78f31ff8342d0fbdd1447475ee,
  0x9f181be1615999937d88b0a5b79f75ecd280083cd13816eec3319f3725f2cbb2dcf962178b48a5cccec8ce208056ffd27c246bb665982226dcb59a95a3637693fa8935191bf32ee289abe6007381ce48cb7759ad4626cb042aa22c40f004193a418888fc5765ed41099ae713b4fe5c17b86c41082f0eb7cc2612008842f075dbc7bb377c6c,
  0x04f9fb88955a2290b6ebd63cbb208dc75de6b702bf5764daeb2ae323a691069f70fc9900f9f941f81550a07fe4de1921581eeb02f75fe752b3bcd45e5768ab4b7ad0e7710a4c35cbaeb7319075ba4b778bbf25e27d31fcc1164fc8a64d62eeda8cc3cb3cbb93089c8b02713b7e9731214024c36989ecc2f18ae32490f44b46cb2ec34be56e,
  0xc2349464117cea44ae28e2e1657c76fa4f1771b67483b924085f4fe2a5cc3b29677311103083984b4929e1898889a5dc566ecd0d5a8d1de706c36579daa9275cd26065b114ce97e39d9da01181ea1506ea1c8c8b5159512e1e3bc2586b1f3fd1ee8c8ab5d9ef444e9750f5f631f28612a693bfb2fac5bdfdb0e40f84d75d8dd0fd25dcc21e,
  0x1ef8116c56e46b39d6c4c83d0e187dfadde45c7c403aed8cba0ca0502ff5774b30f26b84a41dadbbdc7b7bf82c035c6d9d38837312d0b42c1efbc5e166058384b4a3f32aa40c8eeaa6078894f26572d4cff8946fe30db05aec3cffd079233a49bc3192ec5de91eea8ff7dee1293e354b8ada65617652e26cfe819a0db6a8ca124c09c11a5b,
  0x764d828adb34e49d7c43c1e38edc5bc9fe5191f5af63588bfc5b35fd31f4a29a3f9e582c84b5115f0d55d43fef3859ca108b803509b90909a7a636f22ba707e3f5c45f67b1defce093ae6acbe899f3bc1572dba1a91818884b06e2c8af4a5a57df1ffb616097062eed0a495181ecba2f207a5497acdf6ed1fc8d0074dd965e9ba980576c3e,
  0xb8db4b889e3fd1889e529dcb13a355e616a955244b3a6a84d91e7d472d9d797ad3871afb22ee7031a9da45783e428c3d24aad39b846996c87b1f23c42486b4d98fb4dd1e278213c3c9744f1b124549ec16804be0e22b5ff869b607485ead06f8476d2d1a2d7bdc31712d789eec27aa89d971a61fcfe1a7b589b494f8a966f4f6b613a2819e,
  0xc4844fbc01d73fa314c87dc717793f7532e9e0c471ada7fffee797fed4cfa990382f96c148a93d3df0d15be63ba41b497cfe3554ee7f56fed7c4b3f02b74b714c407b22104be72d5d058b0483420ab761e04b28c2513c69f6418f4f58044f48bc1361961ea250291fc195d957a67ed6505a5f26716fb6e22d0d24e4ddd2a601a7c95daf293,
  0xe465e9a8a4c1db47fc867ed10dacce86e82ab631ad1bb58591df20269cbd0f65d4deecce793144fcd156b8881030198b7283be98f50efe826a23fccc816b11457132bb2bc9ab8cdfc98803b318f103f4377e3baa4b1f16407fe158a8ed90f3511780011eca71c40c1907119f51ca6f68802e7a4242be377ecdb8b887c074352ed680c0bb16,
  0x324a6511a7d830ac4a0419f26665c06cc745a633242286e8b26a7f1a834ba19774c0cbb132c16d79c87d0eb82aa0d909120d842f7a883fa631386de33e405524163ebbf6ba160f22c28a893ff07bf5c0eded462d6e795c80ad39070203bd25ad7f77b290cc58db78cd91dea23887cb01acc699d3fe2961b6abe24200fcc3c0e615ee8e72f1,
  0x0ac05ce0f9ee4a3491ea38650fd60d89d5b622188b4000c6351fa0b1812e593ddd929aab3581998e687b0ca30d26d8681b64e7d48157e6d71141a79ca68bd957a14a1035379baa741262b4d010cc76934d57251d9332f441b7634ee5501dbf17965c176c9983e7f03c17d9428f0cbc54dddbe851abb78ce33b76ca534a5c776cfdba2ff38e,
  0xe8a4cd07d210bd8f17d81e3a6b2005f5ab82beb91ac265a1b46ab1b48db770fb8cbefd3c5b51336d0ddc1bbab660dbe2edda2970b4dd08d6ab07c631ef6a37b82428249254f192483ca2899fcfd2bb8740210091d8b1f0413e2a23e242a33b2ff6e32e24719c1c09e6f0ca35668163f933b8cf04db5d12e0319ba36e4e0ff682ebebe3a5d1,
  0xac7bca24832934094e54898d599cded7fabc6616bddec8c428f6afff27a8a36ee8fea9658595c6526da047cd7f3dab4bc80d891906dc94cd118e0066514059fb1ec0ac7125dafbeec5c584976eda012c0508349eea8b00fec0a6383d54c21cc5a8939e72bd4ade2a0808647de9ee79092d0e9b5012f12995cce3671a266f98cc03e7a7e1ac,
  0x6863761a8b0ff239bae143dc9cbd509b0fa8981f6e9e5a472d2def01dec1ba7235636b7797fa056ad7c70924ea4c054beb53a1bf83b00687ac5ffc78d094423d974a0c8f6bcacce4292a31cee13eb0e75b52a087e1e379d7da64db345f42be7c518099bfc233df0a73ba83b31cad18113a58ecaa46b3ea09ec6ce7df83e48366a129ddb243,
  0x33012a75419aab015628a3fbc018e46436918d9c633b3df423fdc6352dbd6f32e3ac96ded9c6dd598bcb624c12f63e8ecf6d507df886e64a5238e630ac899cfb6a3cb90e765ca0e8f2600b7ddcf9c9b50db71599a1f45500ed5ab4602c8eb9835964bacfee2f67db00f7aecde672f2b4da14552fb04a3a1c1171c7b25d4e939b323aa0034e,
  0x67f71012186b1734f968195729dbf60052064b2c9c320a275f8b9fbbd046077f98fb2761ffe14dcbada006086451289372461bfe44d7686d630a10bf352bb107532d3c663a84eec07e65afa7decdd0be29285301f28b7607b3dd57c00f6ca17013de1218a9c64fe308aa8272363ec3a8191d32965aef1051c1c2618d9ff197acdd6fad4aa7,
  0x48d4af3714476b6abb6766c83df9ff4935eadd5556bce695aee61382e752681aa52779e6d37189f5c9ec549327689b81f8319a5fd3d6ec88b35843f304f1ba8807e1e41d67ccf474e4dafb8f6be66616cb15a917efb2aca044e4e0689ea5012d5986f254ffe754204e3a48faa261e229073dca9e1786f5b078479f778e8f5ce08e3270457f,
  0x4b5ea0e5236d94109864e5d2596b20f64ca0cee67f0c9fd28e2ccde5cd49d9e39435040c448f5d48968755532289f51fe2354fdbc6a1b8db50f3251e6987d805a18f0654c48b1f61d37e43793f0d8f1a34b95120f49b68402980cba0fef3e47c835872011593e5138b87f411d461c95b90c74c949fc564e911d4da3bb427e93d278851e8fd,
  0xb3bdabdef08fbaa8a699350e3351102e7075d845b7211de490e7e2bf508d6b912f469eff0206ecbcb7e413dc0d01631f2ce302fc641afa1547bd979f9bddaf3b3025c1c1ef19b47ac5fecd08ccc13a06b1b247766bf309835e8093588b38977386c31f940f4672b193700f69c7557b47a597d0de6258f85750d89231bddf6f84d7712a72f5,
  0x066ada03edbf840ed235a0720f430e5d35cccb4fc3b64110a26abe7cbffbbf86c299c4aea740b30d9b8f423018e928280b874b3ebe6c838f24ce88f36ce5adb4886e496031a8959a1b127f7e7385a7e93c55cf29316596e3899ad86dc3100baacad97e0c9fc96205656c775e7a1dcb39ec21e6d2e3186eb333aa8fa9a80e8a8c955ed20dd5,
  0x489cc8432f47069d5267c2f57a86757ac529fabca33f74cc9a8ba39beaac53729960910a7c110e0c44e2829c8c06ad9cd5ba6a8e7de7683fbdb31f5973255f0524f628985828ad91bd3cdabbc57fc4697fdcd9b41eb08663e9490aacc9ce8f1739e5a2982ee589b93dcbfa6ecb29725c25dbecc060a66014826e1591ef111cdd25ffc1275e,
  0xb4e7d478a0718644e0c2f654edc8743ea7986d4c86dfc17967983d5c0c17df643234f960b90e09968274a6104470d119e196da669555bbb3d0c9a5ea4017df977916975c241e76f2f3b0f1500ff6f24c30faaac14bb99304226e449eb1defdfc88aea9a5c210f8ec2a671856256d3918a863042b73bfbc53871f8d91ef45104f272197970f,
  0x2eacc2d9dfee3f7f7d041ddee83b909fb6aa0ca1072995b47ba92bbb9181cfa4a95fb0d4ccf3f547835f37110a6228db16feb58a62e9cb6633c832279555e341b1348045232d842637f877851eaebafd85590ff1b797a9f3f51baa018e2066381fffb063b6bce2759930e2a33a1ea3a9b4f22f61f7c84326ae9b581f1823e96051642c5193,
  0x387947f55f4c84e4c807d0378acd6158ad08bed0a3a8739c3aa7a5eb5b1e88ae389f78490724f7f3dc17117369d0fad818314d947bc2e206332acec3ea7c93589636e1094f0817f54ab8c78eb0ad5fb6cc6ae7c5140ecab49a5a58952425afee24cbe26e2d94c394ad8dae53e100e9c00e8cf567f32fa524eac7fb3092b612b436a5643a5f,
  0x1e0bf8add6869333df778a3639ae4c135407bfc13d461a275db08f93e6ae590f7a069ba61155013c5e6888092b28ff2c97853983140aeb19c41dfd5fc2f3803e25a4b13a236ed58a98f773cbdd034ed0c67b40f1e058e8e49b2832772b82a78bb85d0e83a27e65109d9de2e3bce1ae2aa81e724d23bf73bbcb6745eef23100e469c011f8c4,
  0xe84657af6f57db56155a0a9f6b5444edbcff1200d4a048686a3a4b016d2308eb8d53c8c041f41265f27a62d3d7a7bf25f4f3178c38fc65aed69d381cf06ab7930030a2daf8f3dab351f6d84181a756309a10d954e925a7e8fedd1b5bbb04a04a3935eb5aa3e0ae800297aefa3c708bbdf5e5ba1499d698423354b45f90d57b818c01dbbc68,
  0x857d86d0932270f691acb9b9d1c7220341026447760118a7c669903662f2d19fb4c90f91e9db80a8b778b18b26721d281e144b55ea6541741e091c2ba156443a2b2b3fb49e43094f5ff96480bdfaeb1301b1098f454a48d65ef66a0a9038603adb327547170e86250adc35834c7832d6a6eeba145d918fa2ba26dbbaa4bc38e8f258e97113,
  0x4058bac00a08825db031e7565024285bf148547eb922158791b322bf58320a6156c030e5eb52ff2760a5b92060de84839c991c4422a3df54a0da253ef30f43c651991205a08a4712e7863135b24ce5e1db94a385a8da10498be5a2f93bf013d2c15a58317b2f0e59c7d4719b45a8b787bf95f96c02091b44fe3563db5b1504e0afc8d3a934,
  0x49177373152ae2e414515c028ec4b9bc10dd1ea409ab0a8307a8962e7b084e048fa72d9900cdcd0b64731e746304660732d6bd31a0614adc64e47f807cd4d4c8ed74c09c580bea2bb8e8f6e2679aa275919676f52dd4935af024e1c17826b68438f736f7e31235b4e4a5aa48a2c2bccfd3628c1b4f56affe04737f8c1953d5c9b27ca14a1e,
  0x41b483f2d0b1ea5cc8acbf69e6cdacee9e5e9bb63d7f384fe7ee6036b9f3be3ee890a1dbf6c528aa1324012433881a6200247b87767f12866abc4ee43432f7c491fc7230b61ff2811bfa8f80c090fbcf99577ffdcd143db5b4b6dbc04a582451c9bb5fca902cdb33bc73816362d06df1f0f6359a01e0a97efafc104c32f992adf5cb0cf534,
  0xf1085d81d7fc51329df4330fd32e69022a0e1fdda1ef9facb7d2a14fb545195b05a3723ff78b67dd7473e33125b11a98286c2a014a31c22536a3c06bf1f5dbde1e07d6c10ba2cfa3b986510efe5842213c0d86097e8eb11aa53d98ee237d4034326acc5c753e2d3644a64c9ad389202c1bc4edf03436151368a947cb93fe9b67409e975fdb,
  0xd43351b65c749b5c642eaf670e79dfd428966f2ffadbbaf14965c3f48c0e331ede9347b4f53916c1756a5671488166fedd817018a8f15e602a0abbed76b1bd5197132c20cbf359f105ff01bc487827173b2981f55cca1ef691301a5f1e8a45028813fadb1f6b993dad5bea78bd350289c96ef0cffb9bd414e5795813765d485a8cf719551c,
  0x1ebde168f7ed0787b74046d2b1c2428437bbea97ef23c6c0ffbee816d01f77b07f791ce14b07432f2ac44b92de7a6d498d651d3e92a0df42958e53bceb931be7ba3e805b4798b44b634628c729d7af95a2f03cdecd54ba9b8bb9883dde08b4822466ecb6982ca9b73b72f5db095f2b9e3f9cb8e590fbb2738c4963c7c047a4f2008bdd7253,
  0xc4186998bb93c0f09c0046747b29c54fe68988cd0f69a1e37c8a9ab128ae0f9f447b2fd192b9cfcbfbe2344ea348c712a6dc1143bb65b83c8b92475fbc39b5d67b3eb927192013efa2168603a58b1be14cb80d5aaf84343e732535b4145dd6b5b72eb8ceeeffaa3843c5408de2474c2a4276f0ef6bb075180849083061b13c047f693a59b5,
  0x6a98f13f85d4e104eb2c564cbf78052834f359f7090c545abc6abd92a7a6012edfd34146c7c6554f48276c73ff29299428875d44fed91bd4adcffa94143cdbcfe7e8831f37ac42fc0bacbc2650708747d10a4f0a9c500339a3415d32a6008bb74c40f0e2c8cee6712907f078b991d27aa0c3fd9e0e21eb1a08ea5a5752aee3fc98c10f802a,
  0xdcc5e42bbb6386cb4053c475b56c79e7fdddf2baed8eb3e5cfd2135b24db580d7381a62a0e7026e3591a38360307e8361d2da0e73d7efc5f7f3cd4d052dea962923074cabe090cdc948cd2ca5d8950caea749c210aac83c95fc95d8919d73d89b390115e2c6418fac1a7124dec501053eb8d828953f8cc0353c04912721703d3015f59e312,
  0xe327ecb95ee7ce84b014b6bf85dca1dee5813bed749eb69f1bc385e916dd100a640817f2c16efe51fde01ddee064c0910cf99fb535aa0ae3d12da26f49f2cfbc1c6f29c5a9f6bbf5e54b1467d6241140e0517700e9a936e3cc79af97ec460317e25a4819901f3cf80df4f1b26065999e04fe41b25eddd44292b827c5f19202cf7c6d22b5d4,
  0x86fc807c670d381bcea9387be11f891dfe841489642beffdfad45bc654281e3677ff5f121864b402dc1422037afadd7d4fd1704d94818d3bf4e6fb73b024c1b4cd1e17898da027fdc1249b5b2e4c917da8aa32281efe5ed1f42026d86bcd7186e937b9ad5d197c80dab887ffbd4c29f88857d7e0a5990e58b3b50ff943b7848c12d794c2c7,
  0x54014cbea41ac7befdaf83e9c582d0d0067917be57500b9c7a73e43892ce93500106d95b74e94f199ec08bf1bff7785388ccdce3dadfec5886c9dcb354afcc03cf3405958aa4d068a46ee72d2c517819425fb2f1e646321f4c13da8269168ead44c7841cfb2f6b3b282a5ba48fbce8718e87680d845d1a33c13aefa531d11119ca1bd7bc20,
  0x28328dd6cb834677a04e9ae0bf60da69cdc0bb40e87044708af164999ed1fb375d870f30105fd837974fc1447ec16dae1ae95038fbdea9d62648d80178f377ae2c225349b70709e7608921e52fd84e420775adbb91eee9d5e4d53ebb02eab69d195de3ffa57dfe082a03da2e8eb93852687ac05bddbece329d2d9fbdd132839d20864d8556,
  0x0665117fdd11adc2422a318653b7b028fe63a9c7d9584ca1db3b121daaf5068c342bd26847a5e5d7e04c4162e72dbb85df617fe3279655e6095cbe09e594e08795976fb49d3d6783f32fcc6c3c6b5bb89a118a4412a5aa3f7f9cfbe7498a316134970321a135e48b65a86cd434d8857b7dd87b65be8e7c3dadc988d2954282ff4b5c184158,
  0xdc052e150457413134ac59d1c04fc7b47f5d74315f601fb0f203778e09cb59bfd8e76a46c3a4bbd091cd9bb1dba8c3d04cc4d537f1c68236183326cfe46b5859d13a228451165440e92e1a217e917a0895483fc8e2b1d3ed5524f9e2bb6c2d42f10695df5c668f37b04694213fe18466e293d5d906f987a05b9d5d518e90998a7096ee0b0f,
  0x0df1f08565fbbf0368ecdfc4140446907fcd9789a89155b26717f5a8a4a2004b511745fb1e43389f0fe8fdefe2d6ffcf3f982589ca43498684b616af029b190cc22edb4982f532755d22bd9746f866f6bb2631a44982552131e41575fd527d419bc9908b18d51415ccbf6c6eaf9c51935e57bc44899c31dc4e824362ee1a2e1b1dcfff9786,
  0x9e7b20d620762c9e5a1f1ccf78e1733ef60e4178fdfdfbd54fdf7cf1a7e5aaa2368b386bbae738329322e4d34b6aa72ef7bb51c93dab66b3a2d783520cf66a718929d343b786ee8ae641d9052f6ec7787aa9255f02ded2eabd8e029d4a8d8cc8356f8bc0f670a3471b8be149ce4078621340c011937049597956090cb2d6de4b04fb94296c,
  0x96afbf80c7efd7052e3d13723de3eace40cbd5632430c2ca6af44d6804e293d7239658467c4ddb5d18941d43aeff117782477ca3e5a607e591af129fe64d8341ab4ec83700fdd0646e1419f0db8cbc59eb24fd148821c329e16eadc342eb950fed43d90ddbf476046e12edeaa2410eed721ed00c07a54e6358f319fbb2670af52dbbd07ef8,
  0xb985518481fc35e5c15db43bc58be506cee8538934e8c0c897d7c25e3845e05db4fb6647e2d7b3914c571b0ab9647f04cdce078004f56931bbb2392e6460f624413f2ebc19877abff2a790f56985fdaaefa457c800d87181ad8caaac67689a2c156497c75a8ca87c86f0c1a8cc24f5a722f931791fa03027df7aec1a673ab3174df304a6a7,
  0xb83681e9bf4ffd9f1c1cbee19ae004fcc28cb3c325c4a66ce70218f03e910966058637b0802416099c64704f76b86d4e8660d009546ba3445f1a3c06eeefbf4246a9f3401a6b0318e8fad449e9008509bf63cf0b69b4efb64a02d2eeef6d7d7dd503f859f296efc444ac4a73aadaceeb04aa96de7f598914a69b9f1538ca308f798d0d2658,
  0x50e26d2b96f90489188f59e9493a70f3a8054fb9123e653f0da01cd64222e98fbf6a90a3e4e150166c4fb8817ed7143e8aa809cd505cde9fbb64743ea096d44cd29cd535c6d97d8e78fbe45d75c5aa40c79258a222f0b8b7aa11a3742874f4118d219b3c2bdc76e79bada9dcb246641f1425baee1e2c08a47a0c8ecbd61bef8c2fd1a107d6,
  0x0cc6eab4efa61baa3da7ea1a54f17f52b3fe2fed5232e977f70f151523092d629c16730bb284f635f3eec6a9cae84cfe20a12024e25886fe8042c04cd369bc73ae53d2053e7bdc050c6c03acf0138fc632564d6e6d678b41d5b4e0d30ecc02a8dfe1d20c104adf93e8a16ad35760e9d993c15700fe639a3f28ea37e9946c6b7df28fa3a545,
  0x040fb84a53283736d4f240866be017019afacc740ea3dbc85cb95e1f87ffdb52fb0a7e7c0edad8f5d34d8023eb1342ce3c1ac454d6b2ada4a676fa19821b718ada0fc4b539ef771d9c97eee0a9c67b7a015f08e8565d0fb2ccc0f21a72a85297b61e193268dc7e36071a324c8c08e3b8fb3ca654dda6ddab447772e190a4e00521790fb06c,
  0x72fc85b6eb3082c50d638739e80661a69b566de605f257405d029e207d847da45fffe08c01a79003c9b6823f604935d736ca8415913aa7e6abdb40ce818c1a455d1c1dd66962b2b9de3d1828c0600ba1067eb479a3169dffb3e27162f028e958da9757f47f732c8aa19f3a4873ecf5f1c08cbf7e584ed59c87be0f43ced872b4d56f1ea1ad,
  0x78cce78f88bad16ac5e2a803f40b64bcef7bc7edd732770da3574dc81902a0bd16b0bd3a80ceb89184da92da15eb70384ef92918d1e730e089f51b2d4e858e647b9ade7cc08c2ef1796ac925366c0f7c87940bcebbf1bd4aa5f25a778e6c5ee2ebefa168c7fa1153668603be4295c7431738cee18208739e4b33288eeeda1c2e6185c6d503,
  0x2666dc19836a68eb234592744c81b2453b6d23d677a83cee8d9feca71b37d688428fd9ddc2d3439e99454cbfa31b3126ab0777c2b9c603c452d9558f4fba74ca9a199e29d1526f694d5795ef40b07fa9ddf4ea1ee7bbc38ad563c1a6d9d5c6c8de79e01894f646b7bcfc6f6967ee2c1922becda8c1e39512a5a58772d88bf977d30807eef7,
  0x12431236b91a3cff015b7f853d935101d10b176c50d03fd899b4c59a0dcb497a3c075b6e7c2117de427eedc094a4a412631f804071a5aa26d4af821d25107d3ce53add672d40ffcf9ce8175c1a918731a6cecb759a923cac66cdd40ef1eff047d5666a3540c44e05c36c5488b67c6554856e29be1f9968bac93f503e68025283e126724c1c,
  0x38cb2148e65d7f8951a1bc7fb0927561429b9f3673ba8d1687bcbfe5ab9124e846a5e4c8ce14b779ae0de3781ad508a61817f2635f87de88cc64d71b6934ffc6006574553385536e40f2411fd5a6f6daa5164fddc8efda3ec221023012e45616cc58e496bae27f228eef39c190a680ecf1081c09753f1f154440d7522901d9c1fa7b8d5505,
  0x3c5b807290a68c3311a333a7c62cba6ee76054c55abcb3bf0ae9ebea8a977732c4c5241e8f5f3c10bf2546f1ecdbf67f8e5e28425f95bf5dc8ddb5ef18f8f2e7ba7518e9d53bc63f9add81a1534ce4e87d63f61f427c4a2a2332a097b2e33ccc3a0e6568ab0350617b0892cba95285c8d2101ad5447255a147adf1881664ac50cfbe49874f,
  0x03b2b1fb340a6b90d7c84e8e646ec558f61d20b4b1cd26bf22a73d7773685893800b96987a14c2b078e642a9ca835cab4d396f473cdfdebc5b17b5e7367a4a0fc8c4ff24b2971253a4596481e409799066ceb4336c4d06eb957f9a10305e65c70ce8d51c63d92a23f33dc5333b1fc3e38a4eef0cb130714292c8a33c751b9991b10938e2d0,
  0x5f9f715dfcd1b294c7e56dc576c5fdfd06162614443b0582913d1c69366af8adfb3aa7c82b2f86dee0e418474f7ff0967821321c3238e68a3e9019a31eee69b0c8fe06a820a7763aa3102f259aee5538299979227cf8e45f6807f81d783522feb3839dc74ff40c0ff0563c0b17865ff0385fa9008940e7adc9296dd5e57f7d633318f6088d,
  0x53e7a0551f6b66c0f0066cd37d24b5f11c918ee0b8639f9a8c31d8f7b90e2293b7efe643df3f2bc3ab087da0e21116ad08ee99ce097ddbe3afc54fcfee01dc3d8c41f1752353f150a9d4a89f3d2f9f88d7ae94c5167d4bb910c376935961fdf06f6070556a2b869ab61a02eb34826e4a566963d8313e7c2749debe23fa6a0ba6b485a4fa6d,
  0xe6344cf34bd915751dabce7f7a7d9b281b1dece4069042455483954b1a168f482a269c88905217b325483108fe4cbea904d8afbdde93b4a520176e0e99dff1789ea293c13fbc07899c1d5490500ac37b5edb7eb6cb2ef3469275c26d922a96730e05d0770e4578dd2c51bf64e281a0bd7e9c619f9a9dcd154631cd08bf005ddda3fca68e71,
  0xe6eaa9acb54b06d64e0eadaabe2919bd95c584bdd40f75685a3f2843fea0f55a8173bd6be014f85d616d932a4a8476566c90697c128e8fdd9cc36203eb2444c0e24dacd6f65c4de47c8590c207d26bcbdc0419bcbc9b116df64ac58f4438f517280a89dfc375298a74f0287f23d15f6d3a9a42676a85fbac173002e1f76fc81328c28e082e,
  0x9875e337828b6371fe401a5ccd836ee3ae32ef62062ca055d41725cfa540c45dc79b1aa72313a5843638e45da7713037fbc103578430fe8422067c5162eee21d8ef889ff2b8e8ed0c543bedebe6b31f8de0a0fd69d3bb1e22969bd9eeff642b87a89e401ccd76e379f2cfd08d3eb52d601f26c0800bd31e4bb1df0d74a6aa3b553d08cef26,
  0x302df9d08191b966a853191f7ab7f3e0c7f63f5b886a4f3880b8cd8e6d00eaded7441bfb4c74d3bda1fdd7164dc5f46a3fe1401cdc63bdf543e5fde10b9bc6508624d1a1dfbe017c048bc123242745fd26c67dd21f4ea4725c4c480622f5c959c70e18e166e98b131c08a2f3829ad9c2af025f9741e654e6636f01b77d77f8abfdf8ae73ab,
  0xcf424434afeaa3e64ea7a0a9653bfc5d6c1cf286f0477cdf20a5d82193e94aa28a9d8d59774082f885ff49f77ecb6666ee1218bbbfc752a9bfaa901a6ef0cfa16bd0dc0af71cff694a97639188e440d800a4d94707f9e7de58a40bd00584d31a453134799367581f1fdb5f665c36d3e4d767a6e68a10dcdd89905f5320046ca12bf40c5057,
  0xf48abf14465e93bf401ae3fc6249684d9ec408451b048e73168fd013bac1d2b8b519f7f5f1be9ff2884aa9d778d2d65a0640683ff8c8f0fd97278cc09054424a8c55ca5b24a2e5a9615bef261573076f3d2007dd063885f2c7d76290c178a4231e7e8fa98f85bca90952058d0725b346fcd27498975d1541177a5a364a77439ab3eab88a76,
  0x5865289362e33605a026b93df5a0045cee2c816641e4d3bf03f7f861dbaa653caef3a0c8bf7be49ab077be1fd195a1f8bc77ff640e7e37717689f1ad657142301bbfefa1545ab6543b61a2f81b9177c982f2c83ff05a11dcff37e2809dd3e63f1baf246fb184ecb718c9c87104cf8613711b621056a85641c89ae3af6aaa45bdabe0b908a8,
  0xce00cb230356d313206dd992addc756cae18d32aee1e1a42278af28505ea26e5d02860229b5d491ca47171c7eb50f96ec4a964b065866bb9d79afa19b411a2bd62a60a213d33d53d4e49cceab8780fad6ec9f741581b20ae3001a9d464f79f00db2bd470376c1cb8fce3008e6ac4fba59aa4727b524d531131666b0f92e8883000de0e4b86,
  0x33a14c5c3e9b3ca8f2edf98a3a84758db595c156c1c1159f34af0ffd9da4364f07d542d4ccb3132b7b4278ebc681df04c2c580d9484baf884fc58102992ec4067e2c81e0862b9462352089e53084936b5d9732a16d53851f524e2ce33ce5169c468e06b5f868e1b12d2c064efc3aa5ad2a7d21d901227cb8911f83930dccb558ab2fb48bd4,
  0x812f88db0519c186491847598881331bfd8ee3e089c7df1e3c0fa07163a16bda7b899bf7f38bc17cbf030c79344105fbbc27e48b6746ed64242852a0aaec9c6d1f560c33b135274392d4f94413e98443e7f4746583311f173a90fa7b1c6a975d27d1a79c31fc71d2a6cdcf9cb4bea13141fe6b304277d45ac0e7e7692379a117aa47f1886e,
  0x122c6449d0589eebeec9a939f540fc1dd3bf53c162f4d13915df5120f7b609c74bd881ceedca6874e882fee2d0c6e69866f3fef2893b631d48274711a5e50ae7a19546c7038825b29aaab5a68ae7c045e331383b97dd591deba918388651a95f9708ac86bd85ebcc2e271e13d664c32b5004a4bfc2f97e2b1c04efaa2d46deca3656b54bca,
  0x462442f327ed2fd22f32f4664166122dea97e3b464d499cffdd28db9b34e0df73bb76ca11415037ba9859fe3263fff786a7c46860c40a9024d1509951c8d602491779d29a55fa75c7d6abe0035ca0cf7ef24ecdc798594c13d086dd8289a92ba28cd02c108145c3ccaf908f12e255568ea961b2cc332fddf0656b6868a5f484562cfc8df8c,
  0xbbf75a807d0b2ce88024a3b800ea208a6a1db0309115956b5a0e27941b7c1d525ce3d5161e16662f3d8d6b59f347c94b0c62f59c8463ca6640611a3da08ce9e77058b2991e0869f77791587ac2bf7d5a99cbfcdbaaf89ff0e2681a1ac0d6272fea7329124a63db18c409722f60eb50bfb8486c5d0c4c7fcffc2176c470417d84678a29df92,
  0x4304294c9bbb45f2e227c07f575819def530c1a2f83e1b33c23f007221aebdf1cb7a946eca7f87477a35f8538f82c1c3faa56f5a973f1f1e1e1a6298a7c5f58047a8fd4e7ece7e6938b617ac4e21a5fb1a27d9ea5ea23e82e114e77ccc0150c028afdbd96915be425543063f78d5aa34bbb1ec707e765e6c7d4c45ab80b42490ddd90bf1a3,
  0xe91cf7116aa4666fc55ef268a4c2dc876b1899838dcb56660914c7d199e2880ca85978bc0b1712a8cc747a0f3541da968087d2c32625f199595b0b8e5af856cdce2bde9501778c7715f927408784e4a5851c73c1b79b5ccc6f003a16cff01d4731074349c23d4a4b0916e9041289410953c15e4f9700ec3c906260dd83ead721d5a7380778,
  0xf3c1d4f1ca13afb153b35f5fa8da232565a335f5fc97dcdcbf24aa4dfdf7c82e52529c6a95d306874e3c868d7f12e9fd290eb75fe1b67b4e5e8d32247936e060b6bb74fed3d985275e91a6b3a3f65fb4074e1a3b544c6154d4c6f4761d3d6425816372f3a52d27972c64bfc5949a4cbe98a6b222e80c2a2bd01fdaca25a11805f994fe1ae3,
  0x707e0d1d8c54f1ffb00111e304c46316333cd0c1b18c21379b0c6d961d27499c7c0fd5015495488c14f922a838ded1162b3e1a25c2aeffbefbeb340abb19263f8a1788a23a958f229166f41a35249c897e4fe35488b360769a7d2633fa7d7e8b8c749f3d69002c066aa6aaab5b00d7563d39321b5153dcbcd623a7f258f05f96f41ed7a6e9,
  0x0a692a2feada003f06d04a30551a3b4b767e31b3e9b2261189827c5d39149f381be3450dc28c6266bb829eea672f6bbce416606f0b54f258d6f0e0d10a1856fa5d2f191bc3ce423f74cf1f562ceb32a57297d8851c30d5f613c3e55f51a6faec568dc803617c2a62aea36c1680eab0aee271b11113f7dea04c4a827aeac59bf8fa078dc38d,
  0x334d9bd6761bb414749645bac58a047ccae7ba2e2b196bf8317f8961af19a1cb3af090ed4a5dafedd0551632378afa8014e8be7dfe389984824cbadf5312f46bf7210a3fc4dd00670ab57f8bf2937bf5c0d4ec229132e719197c004a25ba2b7e14a21daa36439d8a8f4f05005d7843e78a0a1b7189580cc03706d4aa931ec7d58dbf08ba76,
  0xdd9329597ed7a1bf45b5fc110717d066f40c32ffb718554d06ddc6606429f7ae99fa239a5da4e259d097f26146234c247337528d3cb311e521869c6301c65bf8d176bd2b0728f685f2847636b9986f39ddf0c6caee15b9f16060bc5c5166b4e92b0565df4e02a04a96a38209307c1fac22cc91bb5b0fd1f2c4469d086f0026e66365ee0633,
  0xd91eb8cf55ef9dd77581a66a2a90f6e007f55b4d9221908886d4c16cecb0ae8ab13ac0efc98f8cc7cb35878c11d4c8c9ffee90666940a167647f4bbc97b8e73771d573cc100482b8b00079ad1d0bd71f28e8810442fca7081ca0404c99762c718bd3cb628ab4176be6daf16e884cd992a5512123f76cbb51ceea18b590f9b7f2671e3a4fdf,
  0xe6e23a73cb31b28bd4a12a0efddbd7c41759d73794c8fef0cca3b5740c4dff1e51261e6cfee8ea26f3146f0603c3b6fb5946267e731d8da4d81a8a5257b3f8a5a737ecf3ad66b66d6e0955a40055ffd174573103d6863f01d4d156a6604850724dc7b16b0634d968fada20105f0bcd5b69476f97fdc439bd5023b87ddfd0d93fcc9ea5e772,
  0x9a4b90e834d6152617e26e8da29a668dd23c0cb9dcd385600331ba5d6530c92d3f06ec2d5051ba2b91daf0dcad2bbd4a415f278a5684cbd55555809dfd97813c64b56d191341f2063accd51220edf9578559439b1c062ee2f5706dcab4975c40103be8ac1dfdbe6c7251ab3793118924c72af4369d74dbb5deda72dd4ea0c82cdee8f7bca3,
  0x5b38bd7df4f0bf2c714a07eb4d1e47e6ed041a6d01f6d039868d8ea628995b84b30b7b5e991f8e9498ed3966140e162b324843bb161d251602a7325b4bb199e9355113b8e991492aeb0fba4edfa20a149d7543c675271f5291797745b1d13b20882d5a5958ab846cb743355170b14dc895b8581dca032ac933fcaad1d627f9d5860b1c2f0a,
  0x9458c2ee3f320f49d5ca4456ab087f1c40a2529c57c661df338ede0b56e8890ee01949d50cef229707754acd6e62c7f86f737a4c8cbc9809e042fa61294138989f8f020bb354efa41dce45fee9683b5f38b85e1aa9a640496897ad2942614ac0c01ec1b814fef4708c56359fea90245fb8629650695ac882a589be19a62d09921cc1639088,
  0x534d7b89aec232a15291ac08d31900e7048d6024a56f19364c7d2bdb79f10529ed7d5e32e8b589358aaacdaf0a88b599673cbbf20e79fbbfbbe4af5878dbb26ebfe1775e5023c67d8b99590001395652c4a1370cb3a4131b7d3cef30cecb5f7b69ec57c8a787f10e220a0257c0e3f079758c123ad434189f550d377d873c16d2fda24e026c,
  0xad0d54d1b0aad96458ddf90b2468c42869dd1100927249d7da8516d9ba43098a0b214667b1779973e2485d5fba957955c7d96586e525924007c46367a10e96d862fbe4e83aa75dca0bf713c330e0a54bc8742c73acc21f8cee5963eeacc2386be09601c2f22156f60ae67b60be994dc8dd07f4a5486b68f45235a6e8eb1480ab02b617f199,
  0x8e56e2f47afab65d8a914f93e4885ef8edfc2cdae1676f278e65f8db72a914c4f9620c8c9fb1469c6094f2187e8dd246898f68c1faa04e1f32ceb2c184a4048261e428bc4c8e4f9b17eae811a85e649d695631049233c1c853c9bb579740015744d60d16a8c67d656c0cf1d7ffabce56f3afac6a941d448089899d0a2fc4fe2755ddaff35f,
  0x844c9e048e519430c583a7fe355c55f84501abbd360baa49f0cbf5f05960087c41d558defcc7f130a1eed193bdb0e49dbc129da65a7ab7b94c7b0ef4a4a69d71ecf034264dd96eca0f9326a350d8528b3e9a813ecfda74d12db5f54cbcbf85c7ba65e4f70f45008a3f72f2d88e10bc0b8c4003e1964d9dddf615aa5ace950e9074183373d3,
  0xcf2da838ad5a7cd731e9b958dea88f1f187bded0f14a6ad186bcbb3074fe3db0444ac5d4a2d5ce0250fe135e9e822ad8420893776e3bd8dc6ccff92e8f9f8d7f8a7d4f8332a5ee7ec8f980efa8d4a4609a2b046fb94a03cd21a3a6b6e09289fc13f62c69469dd11adfa29542e94efbffd5be2d39664b8708058b911036417e1e0852ebe5dd,
  0xd51d3042be06901750dd76314dd9d97400e999c11bafb24b6706f36ce70dbbee3bd005ebc5cd6be9abe24fb058338676c675c29f42e6ad956c8f65467e6809b92c2b66cace84806ae58a407cfdc2f993f6a6a39da7a715fca0a6e9c4328f2baa8088ad8e0f63c95b6e41ce591014924a427333fe4fc3a4e373af8065ef3f8934167548606d,
  0xc23653ba5119138aac86c545757c7f49d31ead698aed2b8fcd48e849975948e7b4c8a770e8a46247716da460420e91186c7cdb19de5fe2c2f350960d4a5ee9a98c651364a402827304d08a2e68e034425a6985a287deda6dc5a692861242277f09fa8dc8f11afc888ae6669130d17ab8c509c856368f0a31a70faab9f5a9bfbc1d1de115ef,
  0x73980f2bb15db51afde5cba2e39d392799407c9b96c4cebba44be9fbf0e1e5b0a0153f691be2cfec65be2bd7d501ed6d96d9ebc4b0726c15aaf3b7dfa7deb82ec87db0b76e3246f9da0d8514db3ba28764ee4eeb8ff238e97f01589abdd567294b9a2719ea88893a919ca475c2f3ec3a4cbb2ba54f2082e1ef1e7f6bbb8e9ae0ea3188dc7c,
  0x32d9ae01c2f243e47c0d4aec1abb9761019b542e2f70f1b6787b899ca239a4699b9c914f2667705d3d790a7591550327a06c2eee1aa262113ac0268b31ae15002689212da7a46c2458755a91540c5e84ec19029e3156c629df43cb7ef3c62debefb467ce63501cd617f17db183558f37d134db6e7c4c519a488c5ca6d7fabcd19d4d05a642,
  0x3d3c9659656c5d500635c2837a85d580f7dbd915434b371a16ff0f256896dc18346c34d32380ecb2a16737db7b55e8f9fcc9c7d598e0bd85726527d46350800f8a95214eaf5ccd7c8feaf94fd0c8289602bf9ccf1fdd93c8fa407c90348e486d678445deb4a4e343afd814e62a6e73b1e5c11152d88bfc7245b5b81b6160a501863577e4f9,
  0x9ef447a4157d4d9872ab9b17de76fc2e712060ec94160a416f8a60bab475b10a9ed7864139e4b26ad248454eb39a673d6d20e7783bd1596c15633f724413a439191e514a6f5abdbe1d9337de7f2b9e8246e79a3eac10bbd4ce8506f0eb12a0399fe309df44d046b0b823c21bb03ae540fb04db77adddcf083067f0d00a849935eda2ae3d94,
  0x7ecaac6fdee9b27102bcfa0ca57fcb45312747a900f37e256160b2ba92f6b6dcfa20e8be258ff2420695f06f091104099d51baeba071f578e54e0c86fe811286be720b5f82578c5509e2aade37361e4c0c9afb2b000e62e828a179a35b41f0a170ce6611331e64f5e9a0246b0d1470db9b181627486f0ee4f1ab64eb5ce65ecf4263ade9a6,
  0xb35bab400736ca93ac4c331e9c1f4a18c8ed581f00f21c4f4cc1271e16b1a3baa73a4a00d1c0788e8f9eceb762bcc4b97008cd1a993beb12b2730840e31623a6fafa76b2a041520edd0ebeb134d657e627ff601c0c7277b5f4e26df0f3a9279eea58fc8de257142674a06c492ad33bfeaa1158306e0bb9d87913d223ac1930aaffa1da0678,
  0x82f21bd4c23cadc22aba26064061e4779f83371bf31b6f8862c5f705414cb25c1014547c7736cf895872e73af888e1618942c76c5dbd7fe345c2341be70b4eb19c07e029e1953c7b8a5906a73f18444783be3073a593cffaeac4f77c98bf04539e4755c61da5af8f0cd87fcc6f71005c9b0f6851f5475c900b10b84c08170bc0cb97ccb6ba,
  0xd9e79df695bd07e3d736d3470cb6872aa63c1f803d4ecdeec8e136de363ddb247796f17c9a52c6fc6e4c2b1f7682ccd23ef2d6e5b11f3f9eb5cc51ea808ee727c465e52c62d123d59b970fb3e415bfa6dc258904efe2eb03e370f79702e3435c8efba01c1c340c68498b693ecb0eeead980cfdee31568b864d2714505d1c39f3f9c9887d01,
  0x147bbb8ca2d2ab53fb5de4d22a0a31ced7b5ab5995186483e2423c497e1d7396d4a4639c3ce543ef8f92c9c6c4c23ef4cde94b3ac475a32f5027c199fe3f58a67bf0ac50ed0ab3cd439685166c64af94b2a31fbe488d77a68d0a288727297d1c32d73d2e3f68075533cc0940fbc876d91e7f63ec05fe92d5505e5cc4d3b70eb2c5913480c9,
  0x4d1b12dedf00301092ffc867d6e236860b3eabd61a60946455aa7cca85592b3a105acc6034fd61a911d2c32f7f60e364745b02658164ffe49dec0718c17676ea868715ba45e6a5500f49511b613c62a4e51cd2f8d97875e2bdf5a03aff03de38c9c669c15c8b1e89654cc89b4929ad851ba5f570ed8f533b58df3175194b29baa2b6dadccf,
  0x38878ab9349599541c737387ca64ccaa8d7934378490e3306bcb95e952133d4e12abb25f50323823b2feb493a824ce962344787428ea5a8981122a4e4a40f9cf7933dce4225b3ad90fabe8a281fb7b69c264b0929aa87b128cf816d2978ccaf28bdf0c19ac40fb9c24a49f5cdaf51892cb72ac3bad2115e26c74c2da615498b890525d6f7c,
  0x2fdd1a0ed57b5fa6e12a278523246e6bf01cac538f02e46280c12004b5a19eac250b9f75883d23498d2b68de02b55a3604a9150542342a92a16eab227f1dd6ead81e6d22ebacae5acf7cd0d6516f83c0d7bdb43908c84fdd85a886ed9e3364a9a776431a3f9f860e4582faa761b1ef9e7fc631a82577718588d157bfb7edef77fc36b03ac8,
  0x9adc0c5e1244129e2b77aff060d5dd0478b2434edbb85ca09a1c91a857a8edf70787cc2ed83a3fec03e84dd821d6b5f635766e27ed0f4c146ad3ee298a2a362f90f64ea430da93898d0db0ff394a9d6207a178dd4a800b8d47f0640301048219135507ebe5eeaff5f90c438552f42fcc13c3428b86242d6759583a39caa44d75d9bf947341,
  0xa4df784c10d9262602ef44e5c8b6b9d0686f8dd5b27e936e70f7651566fef908b7edde1f0d8b8c15c099fefbd8b4e342de4a324645f16c43e7b12676f296cf0a95220e6ec9a3ba409c33d797d7e5eae787bd1672a54a0c21183cc59dc383dfb448cba7dca031121fdebc89c50272ce5f253a4711ecc6781333896253d915f800346c52a84b,
  0xb14d2599b59cdc0ce27e2e493cae61d4ef7c46c5f779625d0c20131212e7ee1e198b8c441d8ca6214a5320d4c3c904ebc3741bfa83f22d8964fb946ac84d5bd4a735f882a466fcae53ce558ecab790d4d5754ff2b949b50b6679485bb2f89695963f43fcdc1ec1b483b3605a0b09495045545f7bc5e348fdc199efd95a50b5e37a2c98ce43,
  0x9562337e0e8173c975c5cf5cf4d70491697f1c6e6d1ecdcd553c15d4fe30a10c62bedef828949f23ba3daa640292cfc901f5a393dced053c05577779b3c939102566e3dd7af03f20f7658d024281df68535b944cc48699754ed0a31375e76ae3db8387e1d2738e65b334fe5884477878d22299ba0305aca2d2d10fd56e5807340317b2562d,
  0xf485a1d2ad1a893503a81f5c8c7935727fca2dc9c8d7cd059baec6a0373d40678a4bd81eceea353e083fd6b7264361f938f51844d15a4ef0e9fa26dbce00a46ac0e6439768181b5da1ce4af37e47f88447fb898f4c7b076b5607ab38798891db5c9537f54fc57595934d526856331e86184fbdda05690f3254c1249c749285b613d59fffaa,
  0xda22ea42426ecef9ed6189d1a2e6859b488c12b6bd1dcda46355f78c631f8777fcbd22e4416d78962929a30722143228d76155cb843dc52079256e923d534331232c0f17011bf7fdb50bdfa73a74d9ab4908165c0186e8f97870dd0275b232e4b7ac16be63a2db792f6730740fc2f573e865e0ac7854ace9f7d1749cd6c6b228c8fd7517df,
  0xfe36741f69e36962a6e562686d36b5a666c7df8ce9b1be4c56b73eae2693a6fc0c6d6ecf53069c9c1c1a53dbe4723dd0b292e52d023a4d646b2c6b283995cdce3496f1fb11425e51766cf4bfe0cf7c13435788479c03bdfa0b5e85ab39e2ae7aa5d1a188dfb80312b9fa6b8fd3d331064aa861691a6c9a7b03ea0d8f21450f5c8340a892bc,
  0x5131f370aa46c64ca78bf3cc7d53ebd13383595fe3edc64621303d7442ef18dc554be0373a83e0940aa296fe0609414aff04c83ed61a0250be43f2ff36cc970fbc35ee8c9da6ba53ee5f53ad82f31d9a3a1f713d84c63953eea798bcd720bb68d297668753bc96b5befb5180f2824a338ea79492562b20c1b6890d3f29d9433186b005a36b,
  0x1e2ce671abc94105d8779f1d285133eb85cf7bf2c483aa70b684634b6079ab09441e9c822d750990ecc65b4b957f51ecddac30c88142152c471dae23b3bd7bef22eed506ad762df8fc26f4dbb23f5990326fed94667c510fb653ca23e3a46720f025adc414633b70ffdad45ed613aafaedb2c066a9b51e0e056f39891dce71719aee0e598c,
  0x489b814b5121f307716c90f74cd7ff22d988af12a7e246cc97bb2b0a7010c37debf4e6cba6eec4888449fdf84f009c7884c23cfc80ac87525ccc1f968b868cb27ad6d7291fe7b773efdfe3eadb8fbfe3c858f60ebd961afbfe458de8f4c280e39c7a7e84c1ac5bf7257e6dadac0e5e3d58750522468f1b9246f6b2a93894245cfdbfe6f54e,
  0x6f13e84e756d24a54c89688a38f583ff7135a636fbbecb406b96e2757bcd1121dc6c17ae0613211f9ddfbdde5d8fba9d0d5f81b2cd09ea0b7040bd220da61804858cef42a2fea3139535a7ffd688a7cb2f079381bdf7afcc78bc32fde048ca1968dbd8d822e534cecd721b876cc1c546ee1585b17bf9582ca2cb42b53affeb2087668b5593,
  0x269a540ec2189fec0c5caa130efd35bcc827902f9d9015245dd1042ddb07721ad5c54b62f75e41df2b86bfbeb88e759b96bea749b74169cf9e7abda6e92f80991418ffdf03652ffde5a125616c3a8e2cdbc1d9e7a27036d33e1831af844d3760d1d231196390cf4e24ac8639f9d4021ad40e7e1198f6c9eb867383f70cc608f84af468d7bd,
  0xd7e1f9e90efcbad4a41463552ab852936e5e9c8f9d0d118b768c067aa55d4fcb335f77bb15633a1a11adce06c37ebfe9a2ba4d41e1c61e1060409171bf8ab31aaf7aea657eca2b75a69c5a9a5d8c0e03ae656a33e83d348d215186fc574fdac1b46899c10afe828694908ec75649f3f2534a456a7d615c1ce0b7b0566328ac5a266e911e6e,
  0x2b0a1be977f8234dd0b91c69dcc57f6108f190afabb0d946ad0636c5398c652de10f2a439d6b0c40b928fbd11c8d32e58ab99c0c35538f16c19fbc1d1505ec63641aebedbbd6f62f3bf277853b446e2a88ffe181c6c193e2698be9022bb96ea8e5307380b04e926e1f055576a5ba51f86fd93ebad72a670f8252892555fcab2c0c8700c9bd,
  0x1e46f3ad0b4476231f6f987311501d50479eca851d161e800dc52e0f2d94b776556253cbb7e49fb25bed4d51f6eb27e0aa2f8a3d237f06a1f02149a2f32e311c93f638860e1c6f12b66e1cc1be9b48118b6a71143874cd0fed5ba7ae6db134a6dd48019d28a69cded6952745cddfd827ad44486b44e6876460b107d7712246ed3a45f1d1a7,
  0x82ee5348d0991856312b307bbc463eef0ffffeb7e703a0102e6bbd70c57f174604f4c3a7ad002eb21e86272c5ee159decf6824fbd6b69b2801bef23b5d7c9f2d3ac042b5cf60644d2d3f8477a8d661e4a09031033c07c7bda7c17639545cf96569f35ea3ccad596d0851dc12f81d51f5af0ab752721b1a41022f3a0c08f48b325888c637a4,
  0xca48f06963729cfdac4711d043d1664905868a3758ef4164fc02cdaabb881609ac3b78717a49226ad5e839be0500383d5af6cb736ddd15ec8394e73bc3afd9efc7e045bb11f22126efc839e8c1cc3816830f9475bb7e2013074da44968ecd81cd0f4a55fcde64738c416d0b5d29c91a3d6839b3f857e708e529419e2a3f09bec627d349f9d,
  0x12a9c6740ac0dafd80012f9e250352f7062e594425d79312c47ae7e62278a33146b0cce128d26e0b69c34e664843f51dc64b2a7ad028774e86c591482087d42806badda8b79902187e6e42252b08c6357566c6a3b696757d97b744876c7483c82d104d002dfbe9038e1b3dba68fcdfee804496c96a2830a742764de6d9d1c8ea40e644b257,
  0x7f49c96c632b5d906c10f03a0f94e96d3b580c91976a2c81a221efeb523a6dd4f70e203390ccaf0c3f8ef0328f83bdbe111724f2897ab206a8294e9e1000c776500be6a3fe418f27227186083626c1eb38a7972bd2c4f780e2e84e12968685f6a8b4b57a680fd198ae9c57916e11138b824961edc68730f8f9bb0d6a77a240994b0e8ddf27,
  0x91ee621a41c2315a3b72fe3caed10283fe6acf207395d8b68f5cba8f7b6116b0b40337c01acf5fc2815b4df2fa6711a3110c2bc323d50f4ca3cec7c5b3b4f6bc77f68ab62d329145543e201f23fa1b8bcd42312b3300445437536ef5fd30ba12a571668d1909aaf29396cb77c9606d08c3f1cb4bb6e5d5061bab4070666b9cc0354722f29e]

/-- fsb/src/pi.bin, bytes 68096-85119 -/
def piRows4 : List Nat := [
  0x93257d932183b9f63b77c5755523f43347fbb43a02ec5de052e4406d176c56f01bb8d7afc64cd39b8a2a646d63a857aae4085e6adf7753170f2c2151849fe136171ad7fad162263389c65f373b6fd5fc4309b438f92bd4dab3942fe7446adae2b7842ea1a351078528d0ff4c390529e5f725b535bc87b815573350e8a7b18fffcb1565cd38,
  0x6c84a3e19b4950413eccd8dd06312bc4a085c980d90fed4e40f05c381283fe4134e89edc219c41bec87d4091444f0e63b73ae3adc26f7d85d6e3491a124eac256d1cde18df4baaef3ab7626a06b17eb309c57fec9a4be8ae2aa8580a2ebf9d61afa2651ce0448fe5ad11d8c3ba6663ee34bee831ca020798294b1d2dc633d8952c3a31b6bc,
  0x2d7cbcbb86ee3ee3223477631376133f2f78fa8f9e5ea4a79164fd4eedb24ebd0f91a1bcf40af01eed276e963b64281eac7d328f051b577ce157ea8f7b4aefb5877e1500a1072095d4e74a3d20ad221c79e7bd1273ee556143436384862267841e0e099a7800bbb293b896ca75df22df807dd4ac183e9e276dd3204506f842a6749515c2f8,
  0xc69f5389db710ca3bc16b14fb84be44f62f634ef606c3ebdebd76517411d7c91b3a17dff41f686fb88eca31c3288a3efa81c6817929125b3327a91c17443b9f83d07bdb9c8eb57e905205a0e678ebf707c500fbd477278acc7f8eace63a995f6cd8396cb7aa5a8a8074371e9345c6dd8ec251e959ac62d27485c468cf69f2f4d0ba3e9849a,
  0x43b72bd8d26b50679dab61e108ca2a0bd49a1c03d05ef5afb2f834d80cfcf73a733891e78c6756a4a844d6ee890695a6f90558d513c6272839a3327bc661e21e6e68d6f5d11a68915ba7620a8be0a1a5448c1280fa857ed1fc21486059fbc579498fb9cac5768dc39edf5e910a4a7a2ccd24bfcce46e4ed3b95e1ac592f9de3aaeb1b648ba,
  0x46a738a0f0e4e55fbcae3ddabece70fb1267876d55b7d5312af2a8926dd4b85451baaf221150e2ca484ff4044d478a2cad48355caf4435e6a88c6c29040a583ece8c06b8219f0c559c74ab3a866a379dd5e52e4fd0b34b6054cc530bf37fcd8cde0c7c7912951bdb7c65767728b624e941296eb8c48e3bb3aa3dc75cb9e72c05c2098fc7c6,
  0x659918d930d94b5f4ed5ab24bf2a55bcae7890d33c46d6bdf31c7bd785f214a4b03ba8c62f023f506e319c2f873be3cff99d6cfcdb2ab59796f3635c0296dcd7db564dee118a22182f8b8a71b1bf81bd6463c474dca611c833d574c2932f9addc06f8fcfa68af422d3a5d1bf17835305ff725ae200116b4e841b468b2696d53ecf8c766df3,
  0x8c5f3479c03cc8f4fcc66adac19d75d174fa8022f90a122006be5a7e961ce922ccfd56f92af597a85f2edb968d30bd605b8e95eaab4b45c19df0b28085bbc764c316cbb0c9038b51a56c157d7a5ff7b51e4a0136f2191f3363fe4f6dc4d0dd19e0cfa78ca2c118eb8804590b680984054b85978554892f8ce0fc0724d3d7b1f09021b24d38,
  0x72596f272589d8862716ab3aa1180a54cd00bbb19d07a117dbaca3515fa84b8adacc8cd67c3fe39abf3394a41952a923c28590449cf3053fc9afd1d6587b2cd4ac675665e4a2b9567bb566ed9d1a42d09f7b02bb22f098205e2b9f5be799a1e84e0beb80dee8b6e6dbbac2d299b26ddc1705637ed454baa6d00dacba644423172b68412db5,
  0x2e0070bf32fbf1b9fed4513ee882612bfc88901eb61cd82b9efe7a08c4e205582f085f8fc1242cb8774263ef516651495e5eaed1fdc4d83d4c376968b1114763ef17736157b281c8498f2b0c3af9940c14599ea36a94720e2aeac8b93ad06d267dad64268fd4e0ed3d67c98c6f8fd0e74fdd56116b2358cfa77fb41e85284450f637726895,
  0xf2b53ce307b84585340d6ccda216208f3f2135fafbeab578fb28c62d581a0105570bbcd04ec587709b643e9fdc5baa4e426072566e5043267d89b50ebd43936b9fcc24a2779536e4df67e65b1fedc62770580a7f23b4d02852b4552d4beb1ac6dfdbf72aa8b2fa27a876e35fa93bf00ab0de8708bb8b3ed2f372acf9156d94bee4d465b29e,
  0xe1f91c92f815a54b58848bfdbb2542c3c0b3aa3054097d4126db04c4aaa28509a98a848e8c017dd77bdbf759923e73d14d99f3eae4bc51b38ea54b00e2244165618bab245f91f283f2fd5d88b1311a4d6250ac93006c9a8dc8e883ff563f08e073b936fcd84e2f6959d247841c84e7bc46ce019bdfd232f2961b90c73a492f907d74335f50,
  0x50fa70b67001c50921f3363de88a071a8e47924f96612df6868fe31c880ac4d7d0e5b13d1a5fb1800f2264d855ec7fe1c836535d01ef50eae5af5856261ddcb6acbcba7d6209b936520999d95b7e57102d6e100ad71634d383e9b976ac5fef7a78b82d07a1829f2c50bab787be944ff83b21bfee4185b848c0b97a2f8cfc1cfc7d19ee94b1,
  0x16d6f0ae67562c557cce08f4e3d221a05dc7113c26d32baec398e6025e7f69808fbbf60d0a8026197682aecdfae367683c2c1b948532b3c2f3d7bdbdb588d1f59fa242696ff7d884c36076ce1c8c73f47e37e25ed54709130d3eb1b41f9d58c112b794d5f189628679287e2ad2fcee6fc4d8e4a1fa82c06a4988ddd1db9cdd0922574f0548,
  0x510cb923bebe436ee27c03fc05e660790573cacb30e85141f25b3964ef8a0b3a1ffa5501a094f7c37d83658423b86a2275943f01063b125907e51875e78f33ffbd3a1a52b34b7f15cf6b66a72b1dae8b24a28ffa16b604b14e50abc60fa1afee4d5ce288bbb777f47ae02b325663e924eb6aa881b9931f31d15955f3dbb45af18077af4fdb,
  0x773cbfd554b225fab1f35f217dd622687678d1cec46ddf791a9d404d5cbad10432ee526b1f4f01cf8fd33b22c19fdc21bdbac8030c65ee63aa80ba43f6d190c4fae172c855b308d27deb78141f76bde9cfb76ac7eae93ab7a81375647a98adc0e2d550e2ce22fe7ac7c1f9efeb82d247c5212aba91a3733e4f2264817ac9de0043e8135c3a,
  0xd72a906f8805375b8f417cb5a4665b13b0660138c9104254654d168fa9c6fa57c01826127e78a6a181c928f45edb7fc26ea92936f9ee8fc5263ed13bd90f48882848dfca858a0a91177eaca563858a312c4784307ecc3cded08ae3c52641526e9b5fb68772108c489f99666fd83fd10960cb98016c82ddaf1d488caa6f5589637388922640,
  0x860d5cfc5b91a374ffa8d76e3bc0cf6b570224497ff0874301d3312b2a24597ed7ddb0e1d49d51153a9aabbf56c656f9469ab0548aad7d55c90f5a666c87f0d58f45c3a92e3837123889bb95333a32cecf8dcdc4be85fef5f961aa09de9e824e3ac2841c1d5d16b83e69fefe518dde04b42158af14b12634532c48f9d46e2a02ef67f2c954,
  0x3b74119adbb13b749459060b78a33c16163f9696fcd360338e363d096e3dc02d1dbf72922b321e7526f5594dd634af9d50c0551ca38b9f1423ef57401dbd6164f8cd8f9f7515b1154c653487b1319129e3122d56ecc4a173766cd25bc1c39c7cdf8f85f331018d0266133dedee403e24cb7788e88558eb55a8f83607d471e64ac7d6c7fecb,
  0xe44904e0f7ef2ca6863ae2d2eef35d752181658fad8964590090d35dc0c9b1ba02a268fbe8830c055bbbd948bd13b599fe4db0d75de054d46cb37bf9a764e2c637f26a2f4a7f6735851deaaf109d0eb957d6cfdf61f0a3ecea0756f994a0b7e1d683e9ff99a1b07f2f07b2c68e2d689bf496631497b3202721ad45d862b961ffc288b1a863,
  0xe3056f42b63b85c71ab17acac0b531fd9b4423251a22ab04105799bbb9db378b034d1d81a89998f7791fdb39de139bac9fc780172b755677a29836f770059d173f4f0f749fd54411c8a606b95e80e1035d7e0e7f14c1662b47eb04494a6c57cce511823eb1979dcf7ca5ffb019beb4cd9069c77fd811e84b759f05ce71e6c7538d9d9984a4,
  0xe92bc6deca52b92d9f5ff3a40539ede4e50e347d5f4037030fd16791266d7caddeda879026d31567d3dc503cec0c80c6821e0cfe7ccd395936c0e1ec82aef54742f289c0251d1d0f0e012e3191c7082c01eba5da090c7b99cca21b9f67187e2e1cf6a3d84827278bc45d154832ef88f64b7d559af95f76a25acec5b339742e5b6ce7ddf59c,
  0xd185e9854177d65ac2696923a1bbfea524ad935b158ad8fa9c533909d60bed1592b387ac0059b73cd7eea024f4804cf6033939a12ce73ebe44f12a1d66c9749b90be30fad54499b12fd75ee849b97f84c4a2ebc9b8974c4932a9b007a209ff2a0a5479a4f3973a191704fea2dc8b0621df23d2ad903bc6a036227c034011416ec316d59792,
  0x5181caf69b04c125e71c6206aa142a060cb59a0826ae9379b4ed7e996a9cf1e7be38a5de810ba8a776c90aefff5c1f73d51ce7fe4bc7178b497d9ab77e29fa2644b249f690d610c496ad46938a82c03d9f28fa4c54e6d409c4d31d83ba97769b02118712cc5c1a2c556eccdc4e6d257bac9ea7320c607849a451fa7ea05b4e70a541f24009,
  0x23a9be7cd4932f4ebd6e37f73afd863e45844b22c6c332211e8015093617eb4074feb6effb05f7f1309b7dbf61f13917ee8db7ba2d65e75d1ebc192f489ba2c62d2d348cdec662787d32cba27fe36e81b7de4c21ded013bac46faab3eecfcc266918e97c8fa6d681bbb3d432a4877c171103d7e572dd0c1737b5ac5fd4bb884cd021c70ab3,
  0xf88e2ebe58e91eb4b91f0346777ef041ecad0468674f6434c7d4a780d19ac04753b00506191ccfc0c94dfb71b8e3fb1d3d4cdb46dfb2a6df80249175779290ffc05fa5d13484dad7fb556f5da0d9fa6a3654eb568804496c1e58421fa14eaf126f8d4b197309eedebfa7ef1b3afd83e1151fa1675138d8463ab1cec1c870242f3e8981b05a,
  0xc09415c6e4842f2d36551df52e14b7fd9c78bc45687141b45037f245f1b3cbe84685fadd49c43a417bd391653a5525e10669278fed74b010a0bb905aca123fd3ba80eb316f778d363a7a318af84666dceb43ba288b746d00976de67cdc254bcfc6ec8659b07551325419b4d4656cb6720eae8427b85df15825ceab52af8989b7f6c2b00c4d,
  0xbac32432aed240e0550320470cca1565fcaa9bc5c17f5b9b45bd25974007dcc8b679f1458fc675ffc0dbc378cefc2bf0dd90274cc7fb2bd0a9658b1f9f7b654e1d70486e09c5b6f8653e0ce34ab11719cbc367a7c9a26def1dc9a7926bbe2846992ad62e0cd6ba795685efefc5d570badffc9695f18028f4702b3b968b130bd40928854a5d,
  0x90d2afe4e2dceb848e606ae62561980c89b5e359d36dc287cc39cfa36c84b70155d86a8e94418ac72479d2be0a1e7dc9b714139cd3c265a46bf483710586e30a5ba5a77716c53deca85d597cc464afa28414a912f0022a621a4449bf9af4feb327c54e1765e542719c2998633eb3427a7ef3d5180e96575d394f68e7e2fe19b3793bd357f1,
  0xa66bbd7ae4dec79513aca34f293248be0f236853df003d4c881af18bec6cc27ab5da33fd324570fdc210201e1e8f8c9a5033dc7e3960214a753d57b75896b4ba0183b2a5a6b795b7bbbea64a481ac74c569513225aa9159ad2ad5746d66a5d447758a120f55b3d05a6ef58b54d9c5e00528e95eaf6b752cefccafc142630cf2d37237a1006,
  0x984e241ca053fbd2878500e71061857b8e05fb11f0b5b3b5a0980790c0e8702da0e8f4503ab79d1d29ed4e13e10bd5cc9c8446b4305bd48f6c5c36aa8669c677076e24e5a4405e145cabd2b783ce7132bba76f6f53d41534b879a3ebf169564ad188988f9c7a89c65db9add63c01a5c9f680d7fc90fb3d885f51a85f4c797f6052bd94afd0,
  0xc9b54a4523e65b974f5042c6e04c28190d7c6da98ca4960f8d60db0d83995cff53cdb80f781b401af91ddc759c4d546eb4b9f624abdbcfbd082c6e4a9a672dba9112b8895960dc59645240f46eb398c5313866720652ab24f671e4447a870b74dfbcbe0f869f5fc801706db3a3bef1a1c79c9d0e0c05a85186d50075e09392e907f71508b0,
  0x0fc352c33ca4a3e7e14dc846c89b06e80672f72f0865a886b73e48e96a717759b9c2df7f97c9627f166d2aeeebf75001bfd0a9947a7f8e37eedfda463c5a2c5936eee363b91bd9852b3e7255af6bc49cf3ab7efde81ca6ee2e42e600f5d5fe51c15c41ae1c88a66bef37c4d2c752280f0f1ee46446d70404d6ccee9738f060983e5f8366b9,
  0x5a4aad6b245822db7cb4107d416a5c95ba2793bb8344feaca909716bb33bca08627519df7a32f81c54b41d64b04a2d18d03ca5feaae40a422a3c5ec8048370630dbe4350d93dc80f91235ffc2437843c0c2311430b2e2be6fbb240d8336d8dbb6c0e02c15d85ca4c25bb300326d19929a214f4a326f7a30498eab0dd3a14a78843c624f62a,
  0x463b351d554cac5a8731b489951ab733b653fe54066df7c9ba0a10f3b17b713de2af522523d2b10b13fb6a9c8c0c5892ed02a29a8075d265b4c4124a7692f3d4afcf2099d2ccab7049fe797e7da8ce6f47485eef3affe16ac4a625396175f4ac7a571d072cd0db70b95bbe70ca71732d0507a90d8149734bbbc42a739bd918af318798fa57,
  0xa7281625fa68f8aac93be936b3b5a5724301d74b66073630d301ec89c00c2493e4f9e7cdc42229b95bed67d8be69a91cbacdf94ff7c6bdb1f3d7cc2ebd04bb67aad064d70f811d4ce59dd3540fc35315af18eb5abd07541c89d73a36b48837b2318ed1d042a146ed386393ede85d801c64392d95cefc74d95cc26dfd6958ca0927ea1d2c5f,
  0xa903b24bb3ea0675a578012435a17cb24b090236fc922e17103849e6a5086706a38985cf018b7b9218e5ab6d46dd743aaeb026784ed9593200b57ec079b2c125d8248a4845c497ffad994565b9ed5d3897e1466d3f95425912451e2bd361c4345b16a36613532a2eacc6bc41ebaab1fdba5dde055cf40951961d5711499330db8562d25595,
  0xe51b078028f7213b09dbaf2355b8207b27057cd2384d297db2a4e07ef9fb267c264bc89a4135dc9c2393e68db18a4ff62e847388cbc8a966e60de98b4ea126e85926927b67a26447f6f8ceb53fe0bbfcc2e6b4a91047490fac0466ff7945cb1ad645d17fafd1a71e17a0906817889c9f6ad5d3b67cff3edd9cb2a23810e8f9e7cc7097e4a2,
  0xc97f60f6cb174d0b79440e218eba21aa7403aa48ad0c0cb626e3a8e71de726e129851e4c00e7cd74287301e46ab08d9c88612fa4e4b9bbd30858076fe6c537e5cfa9be0047c759808455f666578563b9c0125145c121ba068706075022cda554166bd4e219586fb5893581bb34bcd9fd905c38f3d9f6aa886e7a932a9e8608304588ceed6d,
  0x0566e9d523051f24c2d14080e4f4ef77f1a2f6015a763415438252d4031ed83c01c65cdac699a14c7dbc5f8ab9f4ec501121b126caa8148145cd434ab7768d75936e7e2c2c8a23b395a3d27ba86ea0b49074ed013fbc24220b153269bff9fcfac7e08061068a61b6b6a344870df731f87cba0ba7d85cb55b8e391ffae3169195885f4ffc91,
  0x2d86f3c9e7c0d6f18e31f181bfd7c273d10e39e3543b9ee926ec26f96fcccd84113b0f4dc70db242bb899aaaec81818158ba462952e12e54fb782ef70285800c0d9a8ace17178655925444ba43a414271db66ecfbc65783e7abcbebb2c589c252802c809e3240652283252d80bb04ef07ccbccabcded40a6cb01b8c8db29f35de996159fb0,
  0xb61e304bb8b376c8d840b8c238c12272a2c2dfcbcaefab04af1146a3920ba9582d0317ed1984ead10b499f063f8d040d2ef60df167d5230ff551cb53c877c983d3689b729728fe75154806ade85cd9315a520a3e95a8eb5020a7281eaad0b97132bcebb0251f9619fcc23a7383826fffd73da5bb2e6d1f6ef2bbd3a3427c24b18b5b8df635,
  0x950008b251056523d6eb69ba66139c05dca1cace04965ea8b245359bfb44e08ccc4b69e7268bcb11171f2a25aacd3324b0a6353a697509f1cd032b2f6059e37820b1cb4a679a47d9977dc9ac610770fd8ec0429507e4ef8bb4c01555175a1139602d2e91fe86dfa5b955272d3e62b586fd95be6de59a5513bb9af6c36500bb2e393c3522c9,
  0x9ef34e9e965b81b194fc29347ff5df0ac97f01697227f9ef84d55a1083726d1ec99666629e2cecd9a2139adcabea4f502ed962892798c8a730985889823c7879d4bb020cc40fcfc7b4791832dab04cb429f832b1e85d9a78affaf389973393ecae5865e9e9c129feffecb0ca549ac566ad8af12618874249be453e3a2d0835b01915595223,
  0xfb9f0b8a613c6e49e319052ebe154ff9ea795c8572123fc7e5701053efe3f185a3551c0bb04a720c6c6585999e757fca851d32ad95ee7b5d232e714e5df6b07e70f01eee2794e98585cd3355ca31c506cff19794e587bd2202cec2df2eb42d6078fed97d43fd9de92f62a94af2c662e81e9c70c2b4ad4cb2f0517179f7af946dfdb3d04c1a,
  0x22354e02f0b8219b6deeff8050a4d59bfa825b7c6416624281c482525d785b0f34038b0ac6fd7bebf325d2f1a495ba5cbc6c93d559f7d8a63b69855ffc7787011f95a1471ab51d1799d0053f70641362a36795370da8a755752c722b087124883980ca4afcf115fb772254fb234c624d10d548d55f03b0796925e5981d143db866d4d8dc85,
  0xde8a8dc079742eccca7046ffa2350b229c87d04a10a8442bb6995ea5a39db77b33463dd8e5a28f6573538a5e00b880490288c07166ef3ddd709598a87b4cdfaafd87f8f65d92aab48be0847601929214927f6d625aedc95257dbab19019a04c694211b7098dd4602d7f93609810073128e1ac8958c251b625b898d1b3b6ec51aee2943f5df,
  0x1cc7f1c7341de2863863092d160802009f215e4a5c7d0479fea279ce664b995e9177a3026e6b62744ccdb56f9f06ebee7772ec967f094b3dbb2c65af357165045702d0e11925fb5dd62338429ce83f94266b920930b1a5fe43577a01c73f65e47ac04bdbf42b78b65ad99e5c143343692d1787bca8d79913af23a01e0f2bec8a359ad02230,
  0xd136d326b704290c4eb49c47a7127428b4225ead212cbb6269f420f922278fb9619c5985bd24abba911ca64db7018c6065d0bacc8a99ebfa3bfa2e1d8c3855e06c68c95107ff11b4f992b0a0464af758797629538211c5b518566caa4e68df698167df4e2878820cfcbdeb61b6186f8437887739dc3af8dba993c44bced6bd6bf79f01605b,
  0xf49f4fd1dd0bbe638d0944a6c8bf9e808cf5dbc0815198186e23a2ce027ac0a4dfaca09f7133be399cc40ab8b6f268285b21cb95662ba551d94fdcd2f5128489302b0695932580844e5c77976a8f88760adc11ff43f62b61a100fdc21796e6d1341f01337988721cff358d7f46514c13e7e337d5f5d6a743eb372dc1ebfd6138a5b51b1c12,
  0xbafbcfb68de231d71ee8025d805c0b47974dca4339d8f0995113dd9e44146d068a45bb99556a5b7d7d436b3170cb151a868ef894a1d68377e8e8085eb39a9a570ab4405a09c17c378daecbce785f3239e8ba9dcbadc7cbb5d2d046cc492bf565186b1a9c45f57a778e8887dbc3ae7ca2de77f2f82a193d50e40484c0f3b2def1c02253d0da,
  0x51396a933a24e395c02abaee87f96e510396b62acce02f074dc67d0c769c2a634956931009eb810e10cd2a3ff1b8e8edf624428595896d8d82af5f5386616216fe2e94e200637ee975d5126573a935b893f3bd60e0d3ac90bf544f78a0aad2ab18cfda83f3aa321a2918fdf2beaa33fdd31c4888897ab437b996ee76798406a80b03ef43a3,
  0x63cf20e9d58896cd30507964794a69e88f6b358dbf6e00e9e74862dc1c080a1425f406256d8f22da59b738a480c072ae1b0df26630283500d1c9de3a9cb43e5083fa7adff376e644117dde58379a45a02e87d9b3a68e010058876134fb4fbbef47be246b1e57c77a9e0b61c42d9324752a17bc7962157f74176841da57637e53f5e281bb33,
  0x541eb802ee08d78fc0d0b7b5dda67d8c1f23e97f65791301521e9309c144b6933d58a9a660cfaa681c3468307efadd9ecfbc0291183380a3f962ac101b7f8392a315cd5933fc363bcc47fffb897cbcc5d7490847f979e626ad0b50b319a59a4b3034dfef72b610ccd7a05bb91adab6310a96fce9bafe26c80655b4ab9f0d0adb74fad66f89,
  0xf9446f68cfc4ac70be7a8f9e79d7ebcba16d52ad375edd300e90f929983f627394ea22cd3d913ac631fb5c1da73428fe0fc58e50bec4d0f531162d2a9078f0aa25b71f3ff583444555c85fe6ad60b30f0c0fad04d0ca1e38f8a2f2d40a7d2e727f18dade88b2e3cc842547acb018b09c6a1ebaae1df1a2d792b75fb6f79ec1e192a5c3005e,
  0x3d6d692916fe304e6cb6afb109e6eb62cd8aa89a5eca657d6a369340f92fad1b57b15844559315cb9cb2f18d8a7d5ed8c1bc0fb72481d2d34af195c1dc84e637a210c5b2fcf9d35b7b811aa7acd4f55ed00518575388f9eb54bf3b29c55eb4c007d853983204c6190c96c3617ddc08dde32d7d9b429cc3949e6e7bcde168dd672df56cecd4,
  0xc8d8e8cda7dce02372b577536110a1bd738e06c23033bacad412f955ba52134cfbb2d8264e99a8226fc418fb44e0b1d5a2fb6da79d8d0b9d5cb576cb8937124eba00425416978eb1719fb22558da67af9fa5af428c00ab5e24277ab244e86103a3038e8a85b7bae1041b8a01a5062ff7bb8a9f3be936cdc4462a014837044128d7e21e8526,
  0x3851dc3bd58831e441fb46ed835e2980e71b19eda3f676395563fc7eea0b3d7d643ee6b1de066ace3b707a5a2c59306f30e32f4b651cefec5d3eea2ff46eb942effb18fd7c31dad34080b3054b7ab4333df0b54a969ac36d9e361d66fab066b8e7959bca181187d7d3eea019c20c8bf76667c39a7035d744daaa349a5915f92ca592943874,
  0xaf3b7b66b766c30d1ebcc20afab3bcb21d8ba49146542af662f9e170552078b56b72a1a35b47f05c406003e0f0b4d88de8b5d059584dea145b7b9741c7e91f13681f4913ad3d272ada3ea608c82d73b8a95f218566585d8655b9387e98b69a1d2ce79e372b7b87bb437408ea3ae460260432f60962ecf93f71336be2feffa8826c4c04bed1,
  0xb213fe6d7732dbe57742ed2168e80fa7a798752d0e13fddcdf26955fada76a511649ded567abd04061ddfc30d2649c5dd9e2643c239b10780bc20d674cc2758868cf611a96e880e6d0023a4c00e2b88dd0322600e907ffaf5ec0fcf6b01c02ae3ce59e129c00c4d4e61a3772d2791e9f7e76041efd8b27889d12a133d1fa2a529e6c3307ed,
  0xb807c6ec074fb6e108cd58a825dd8a57e4fe612cc747fcd6a1c1f0bbeabb286d55f93aa8b207202e7d37852f103f05bd38b3a0e475228bd1ab14c66734028ebf4fd1589f5ece60ffb38bc41d9a1a6b4a60e63fb57219cff6df893968df75fcb979c2cde689e20014f1a17026ea7ba995cff867d333d93fc91ea7eba9e882f2b8ca423a50b8,
  0x6732762996c7d07cd555d9faa49ab4069528f246b7ba1b471fdc0e9bc491e2671cd978d010896a5aa34c84a73e6bd171eceb11a67680337f3074de69561d966f75ef8195c2c672d6e890e73c9d8146728866dcb06e44b09bcd65f051b2a3cf954c820ea75d188b48ea2d4425b69af9650782fe65a38abfe251b4c9b681463d5621e95331da,
  0x67b4206b4eb7ec32c40c029ce7e1bc168de79e4e0922ae6e63fa24b21cfaab90a072c1b49aa36abeab009b6ac03a93646ea52c2c1f027f6fc00626692f0b99fe56f33e59d03b85ffa0f7b492d82b86f2177da0e0c9d7a9efa67eecff69e06e8ab5d532345140d72978a65ef3e71097bb9c126346ffad565e5e2277d2ff664d56ce84e381b2,
  0x6a207284993cc4ad5c35e16e2647cae971086c04ce348e6181d9a4f18abf2086900158f23262e6c693232db486540881746cd5986696a72598e5fa20ff12c1adb8fc95fbe5cc6146c5d1460445d744797b60a0c846b5027895a941383adbb82cbd53214caa874098b556b4c3d116cb5617cb89eef2a977c40ae8b93e525c3d23aa2733a51d,
  0x26a5e68754bfe2cbcf07b4cd8087dc6f8c7bbb673e9412a5f922566c04967c6c8cf91520d461b02d2fabd7ec16067afe2a1d095338cbe23c234f4491375619594f195307826885484706376ca413579fb2665ff39c6c1f18566cd93d0806ead38062ea0c5216e553ff68687c82a43260bbd6ef98d7e28fced81656c78dcec66a21d492ae12,
  0x503442761072e1ed1697bf08c3cb60801e80eaec965fdcfcf8ea3f7641003de349841e30ae01afbf180d53dddeb563b1a9867db3a22b2d4a607d9bc34ae5b484d7dc78fbdff8583a17a6d3d716afab628dadf5f6dbc95e88ab79aa80dfcbf1462299a09a36dc0fa1355ba28403fce3d2bee7ae17bf2485079eed497f2042a11a494b2cbc8b,
  0x04e2681ecbfa8b75f84f542a26e686e34df4b8e0b70ca836326221fd8baa8d15777877a2ecf508739ed7c4a3b562197fb351f4239226db7e059a331ed5b4bca6b9489bce0c529acad8449dfa7e86c2752cee16615f084ace3e193f5769829c8ddb4dce2c0224f9b4b7d95b44190790799dd9d0384ed485bb3b89a7b522aeba9999a3a38050,
  0x70c226e6dc32965c5be9050ad5cfa146ae2141c0b68551dc79d30ff8b7b2042e5266fedd14be73c3f1c6799a5f7f2267e3ebf4f607b57c0e202a47914decd150f1d09de1397639aaea4c9889fa3eadcf79d509cd4792868fdf317990577c071f24e09751e4d6513f7c8377a7b19d701fef82dbe98f41caae7a498d91d91e2917464cdbdeef,
  0xe1cebadfbfec067eb0e2954c5752de53f48db75f65ec5bc9b8c046f9760374e6811565195400cd46a26e59a0707098efcbe0d6da97cc5abe94803851de164776a66e1b83e8e5660cca909e9e611bd82b4fb349462b7adf3fa0a1ffc5dc26efd00f0de870aae1e07b2b01f31ed3c0624e187d28cf4d9e2e1b56badc428e6635bedff6c08c90,
  0x1f0a96c3c9409eedb8610602b3c15cfda0c56b294abf8380f401ad366cdb218dcc71b4ac1272612706be4fb07f5044e7fa6c9ab86f3e9c97b45191b076470861daa93d892be4f8cd9e166d77801516caac60768183db7efcad278d0e33c4221d348af9c1c987cd11a714b844e47859ba352561cbce41b05a04e28d3045e116d2ca257725c3,
  0x672ef59810f91d5607e71cd98ee288314bd8f83f5c8466294a9a820a4dd8a78163ee521cd61895ba6b2626669d287c900fe5320b561f8d1e3249fa7507ddd13c7fffd72402bd1f52edc2d23b370ea469407264c9b782f89274e7fb451690ef5b11f967e3e50e67778de53ca8a527273dc050c7b427369b06087c4afb8ba2953e7ba1628023,
  0xb448a60ceee0d6f0bffa7603f3dfd3d375726d9d012a3349170b116adb68895e88f28d004c75dc4ff26903ab938b8ddc8c816d9a0d000863eef28181537af3e916404aea40b8902c1a11b84fe6120d3e025abb7e381abae82602dc0efc0e6247d8a391bada833eb50ce838de565ebeebda763f126c8fe14478a2c366c274e610a4db4a05a5,
  0x5f5f1460ad3df7942f9392a0b99e8fb305fd140b2d238cce182dd405a537cd0637c5dd88334e067dfe4c1986f0dd22a5e8b54f2d1799dd8b891a6c8a9f38c46ba733bb2e2a6773d55bdfe9e66fca04f0296021a9a0c16c47d6e52b4be1dc03b70f8e9aa9fb0c37d7755c93075c281d42d242fa61872130c4f31e44a00843caab27123db04b,
  0x20bf513ff8a9291ed72b9981abd389cae571fb54f8be7fe951be9a9d428b95b7914e264595af3f9a3ad79aeb757fcd30e6c25638b7cb3c71922513828c328b99172590d0c86c710c1b04f0bbaa87cbcec3f17f6d1060283ce3e4ee036b3b43911d511578843ebc8fec1ae0f90e984d880706fcef87a67beae54485cc48e54f4216eda0319b,
  0x06df84978c581619e92635f3dc3bc1923d286b4ef1ac24342e37e8eadbe505acf1d0a6161b04c81caf8f35aef7a1de8258af0391321fed888d8c87f5b2c883880f9003f3e2a112b41c55aaf5e4d2024c45deea5449c1b8c1074682c258b140004845c8ee88db246715eb79c8ddfd12f99261683dc832adde4f05ee681b8b78fc691e7caeb7,
  0x6811a0c9d95aa9d3e478fd0adadd3e602c29a878f1af880d196c38676f798e1d544f2ccc159c38bf3821ab52f383f165484df4a8e0691e82c8c33e79f0ffbacc597010323377121bf4eadbf5dd46041afc2ab2f1d4bd15bb87723684ef499f93bf48fbf76b5d4a272d8c3f815866d9f76ab022b3b97b5e325910c8c907a489e0dc84b06fdd,
  0x1be72d1e5717e040bea991318b588ea1d9dc70a69572f44f9356f1365b7a7bc7bbc5957b4826e51cd7e1ae77e6f2ca313a60c3bb562ec56d20e4cc0a3c28ccbb5eaec8ee51d5f470ea1c47df265edee9099258fcdac1d73859b27dae94f6f6d536b0e21fbadcca2cf75d002fb640a690e5ca52062552d8680a4079d7d2ea883a511833d7a9,
  0x1790a1a7cfad198fa7cd94eed16aa272cbdc5baf44129119347f1807e8974a9b512b5512012ae29ec5cb0cc737c9d08cd71dd38a1f19a925d12e99f8ab3da57204cb61c8ffd23971ccbc57615ba1a98260d6c94431871f2ab2daab0041865e733b75129a74b180f78a83e60320a269e8acabc5c067769d0eb9e8c80fcf60a2805ede58725c,
  0x7ff69d21a202dfeaf827eede1666c41fe86169678cd78b83e77e0f3fa27dc7d5fe0413fb3ba93063c9425408b451ca2e1c42a7ecb27ed3db5d541714993fe5a9d762498eb72fe2565f4467cd89b257cb694a116437d093488a9a4e44bd5e19ce6d66ea67bbe30ac0abe8931e77e70817638141c4ecf7a469ee5c6c0fc2545073d63157efb1,
  0x59b6b39f6ce13a6267a76ec7fa968aec4f54ce70c3bbc8b5a66ac1629a427a8df4c5fa40c3a01080f69c4799cfbbd12bf6e7d7dd4ebb00162f0ed1cc299380fabc5531869ad56962539d33169d10b2240b4518934a159c10b897b3b7e10c08ac9e9623420c1ad8a5b751292337822a0bb192b2564c33f98f759fa905cc87a0990d2a398d85,
  0x5713ba1f78666220db62f415d2431ec0d11b1056ff753d00b440c0f9656b0eea9ab8d0cc3aae111c58ba03bb6f32ce50b2d55e264a831354b8e94ea73a3c26de1beee7499664e39e3b9999e0a48f2f274a4c04d358c75b9c1207a27f9029ebe4379fcd8fb4bff54666db9e191d342d6bf010e7132f1e3838c2cee81b640848d1d4e9d5d4ca,
  0xe7c3402ef26087aff5931735371f951f79c39e6db3c4b08cd04b268b02d22038fd3fef278869fe013103fc45e0a0e730834e2f768696143ac156934aeedd28a07748197c9c47ad9f47eceb125b1cf349a873c364df36c12b082490634d6633bd3c280f3c0f87fd848f09b93ffb2cab5d9cd0bf3f51ba9533ef67d05f088ea55ea40f09d767,
  0xafaf59f1ef8892db663d8a7388627d0e18a41c7726f8e99d9becdffc0cf796cdc0d84494fbcaad334d93d3d28fe7f368046926d0535504153384c534180847f08f0642e973ca86810c7e6cc57b45097accd93cd95fb16f05d7df0061124148becaaac3d6dfef72268ce362c4c9a5b0513ed51691d3cf36736330cff9f1e11acec298ae7b5f,
  0xdc07cc4deb199c78371cbb6936c8b5ccdb358d97ca405dfc6ad96928e39d88ba5576ca57224547fe5f209a3448de3d92423623d1507d07678d522b1ceae00cec714fac0131cd07cf14403e58ac7aec96a16271f5109031b26b5ccfbec69c879ef44589b8523e3708d3b8986e6497cbc5c78aa678b70b59100e7dcb44d943f830eba2e77608,
  0x961222eb4a0aadfad58896685513200aa35af72d45204999bfe15801b7252ab91f3e57137861f40de2de8beb8749c115a343c43fc08d14afa2fc32171fa5594c5710c29da8e2d0959b501f4ee7c1f67cb3a0be11f82636849313c3a9a295b8e10823335f5e3ca87fcc6e192c05f6991263a5e347eb964d5f57e0635968065f6daafaba7b9a,
  0xbf5799a3a2fd3d6cdaed61f78bae5a0881f38ef628da24692dac03546b4774d77e703eb3bc88bf0a798aec1fb7bd620b339fe4c6c491c05949905aa0517ba9074a199e2a69b80a7075a208e96dfa227c6189d073056fe5829872a4ac417841e86dd6563bfac59d3e8916755910e2390204c066aa59ff210bca20822b7dd361b87389c041c2,
  0x4be229cdd8e6de40011218e57afd9089150a5b65e13893799324a57513dc4f26bfc05cc7ea72b13e303024c1191ff4f1771a952657ca513670234167519dcad9d3ce52a872ba00b8115264a2037f6a45ea6c00408640214b6177401095d06d9eb7a1bdfbee42f1e44e40aa1e7040659c9b87f083327def04411afb95393f907cc2b5485c21,
  0xe15d108d26893cc0e69e27304b610823311ca09070c15a6a7d6578e952e06a83bf93155a0a7bbf6fe0f311d56ed6d728d09f7fe7497bdb4720ae8fe82b742677c523e25363c7e45ad3ab96b7f0d38a9e903d7c22b003558f27f16b0998b275e28a2e1eb4678bc8e6ce959114f6d2673ac7552f2082758cb686a2cf3a8f89368b7b55560527,
  0x4182a72274abd64a768022447ced0211d82185586cfadde486db32d7eb49178711500c66570e3ac63194bb1a3d2611ae6ed98b6143f476138926e9537ed2de2d176bb409bbad40bb6846f76e4dc91476bab8229b3b64c4fb6a76b735b60fe75739ec2c078b66721b491c0b4fb19b6f0444c645888dc4d133bd4712f63542ac67208a7e0a43,
  0x7a8b25ca185296e43c8cabeb72080315c0983a1d0009c5c8dbf33ae7411b80bd8952882d38b4845626ed6f845cc7bb5c37b3e255d2dcf5fcc9ed5d63fcbb28a1e4378570a46069aa35e2d4e1b73aac01c01fa2575a4ba2f051d5eed89f35b0fee08b0e93a9d1e54fefc3b96e5a0c0ff08842191e9e2438953023e37dd6df1b5d8575767d77,
  0x51c8ae15b99178fad9e7547c9c1bc01551618e302c2e3f286bbfc6739190cfe79ab76db746391d2f91d37bc9d846133a5b360b1c118e3da1f0f5ed738244aaa5436900269340a4341197b6e139c728fbad0a0a3be05530709c41a154403bcd1e53405a8b63d014b963db70d92cbc15a591e6b5ba1eb4f8f3799bb4a7f365911d1072729606,
  0x47efea6017e65e9dbe75b230c63b800e96d5a04107c8d83354d3b0e823cd4058f89862dd8f333d0840665d91858b2d4c8db593bc8a69378916dfe5e201e6e16c3042978dd4cf44b54d11d033d558d070666a5d053288c7971a1f6bcdd8019ab493f839293914b01a3d31e382a3420d0c67a7527b3d02e32f6e529907893779a677ab03f0db,
  0x86ff55ab6ca282bea011a08bbde90854e2ef5a3b7ed6a9eb8105444c2245cde319118667abe82e8f78d8a602e453211e6e2860af2f850ac586f6a7e5b31e7b3df9345e33379057d1b373bc797fc82d0799ad6132610d0ab9b00897ef557bfb6015df7a02d24d8dfd7dce51d950852cfb8eeb5e72163e7ebcde4e7acbfb59831f8e8a263c70,
  0x5a3dbeed2770ab1355d90800c5de75d550094523170a1f552e9794ce78e916025b08a8c2c02208660b7f8b79c8b184b40a28f6218d0fc9dafc2ecfc92f27851aec1da17493079c18b024ee0abc06142fc42c4aaf127a39801ba45664c73461b8dd45a31c9de270bc4f191c03cd083b350cdd5e840abac5e6d83997cf4095f5c98c90a63eb7,
  0xd07a1738a78a8101ce27b21899efd527ad4c13f67e1b92cdef0d908439fe6240a53084f33ca1aa27fdfd63b55da34986c7d3a1d630bb55e850bbba9435cd9c92f764652ffd66a5b1144a84af555a65307dca22959d45397804b4cf8ce6f28cfa374611712246ea93c380317976c8938417c56989142e8b0e88de2b5ca753695f355e061157,
  0xc767047e69d00a28892f3d1fc83d887487092d9d26138990cee279631afc9e96456f5672bb62ab8e49751beb2ffebe2ba915dd3af4a643be56cbbf616b8bd7898d3de0fb9159650297b93c10a10132a5e4968c1339a776695f03a8445dab6efb726221bc9c5c808984b848a947e6f7577ba7ef99062ccc380632d0ef4ae298cd9439eddc99,
  0x7727782ca4f0451b757d804261ba33a8cfb258c82197d3b135b9806eb4773a24e5fc5d3d87496a9d42a2736da15680cfa39218242f939d1442c43d5c62a6b15d1d02f92e6e3a8055c363a04f23df441cc4e2ad7cd6bd4d919e8f791fc3d0fad22dcf816c48f3230e06fe3acb2560c167ddbee3f46d052a2e3be51570bcb6606f38938afeac,
  0x260100b8f6e5b502cd82b5f8a550c6025b8f9ab1a40208a0bdbcb174c1fdcda968705ad4d3c1946e08a0bcd4fff5d4e12ae1605d4104987cf8266d2fae3a26be4e280cb394d58bef0dcbaff83ccea3bb90576a3cc1fe8468fe35b102f0c5d1e5f9a5223726fc97e0d70304b5d8c27e0e04901bbec8060e88ef88dffa9421a9632916ac3c61,
  0x7fbe29dc4e0f57196878a2920092e3f6fa7baaaae9100dc3ca18fdcc6d2ec6d7ab37253c8076a0d66a76f200c417437a443baffa9d08cb92950fdaa28196d485fafee8ba0ade18e83a1fa53345b55bd6eb55e6fd71c59e5a0faefe062e37afd3ac381bba76d1efaf62f2fbcfdc8e4b7581ada89b946a060d9748deabe74c2fceaf8c725f12,
  0xb64910f307b24852ff65c904b04105f698b9d95c53558becb76d82ae74f2de561eb3c6411723b512256134d23c67fa19c1248be5a35c12c00a36ddb28bdafad1a1ec288a0d3237080eb5975bfd64e2d19aa7abdcfe95504c877bc56c9d5d534634c02eae73e89fe17b187ec42b205e372df5228ef19c7672f44dc7b7ce1c153000fca06174,
  0x9650919c7d9ab9e15ce0309b1210dc33d9785e808785c15889ef379f416c55a9222fe953df989f5d6cc64e0713664e849d1061455e4634a36a65a059fc4a882e07065369d3816ef620982110ec5f05cc5862373eb438ad6fa249794de02fc0439733ad9a1af5e5a3a41cfe73b84918db1c2c1abe72660000a6b373f1e629e4d26b8ec70b98,
  0x173d1adafab1282632d25abe2f15cc0725adc0df5c01756354b48315571d788dc0fef2da2df1138cab28ca08ccff230f07bdc94ed34dd8c30f8bffea741d0eb028fdeab760225800d8eba16815cd64dcd8c9d6e36e881b042f53f5b3247929aa71a3aef3cd9579fbe55ee865f6e6d7fe5ca3fbddbf5e50a9a320b54ee9606216ca633331da,
  0x0d4b1997d7e8a838148517ca7d26030da879886a2059d939338f8658e5f21d908880d4f3626bf1c8ff491ba148d1ff300368a1bb0488466862bcd4847bd1e25fbb44d6bd50e4aa45d68b51c691432c1c1e13e59003a3ce09f16385a98a38553fc1f9ada9b234bd499158ba65430bb27ce5c18618d6c189167b0becbea351fbb36e67daa8c5,
  0x24965db350d885095fec12c42b71a7e6aa837a2f08f1930e3f99a1d4bc8a69ec1b0bb421caa47121230910f3d0b37aac53bd88f7757f994145d2b3eefb0c45c8a9953419c53bd5742e8a5fcd21b1b8b1fbaf13a305da607a31795281d6d44b202a5215c02c9b3a24370dccfba5890c682cd1959d128b2b42cfc55b68cb344d67f0499fb5cf,
  0x86de5271f2f24620c2b530112c5d2f2f5c7b9f1ae2637e0185d584576e51a5ffb96cc1dc63af59b20815a8bd2d8a9307993c3350864711a23ce21509f8b7292a741aeace903fcc62cb0813d1878f241472a9a0746d9b627b3badacfe2fa9da2131d61a9c010c7318caf1e6befe17e49509a979fa81971a739e7252c4a47a2aad34469eb1ac,
  0x6331e3affcb94d344d7b5efa75c600e7e62aa7a4b4a989bb7c63eb7e756cc55843e0b4d44ca660d60848dde14c262a378fbbaa5d603902536a0be992350bad9dc34dd71e734112aa24887417300388bbbae1fafe462954f9d8bf04d72f5d0e9f5ecd0707bf23eebf2d83628099745858f8b34d90bbf6a0769e8dd8b4dda01c687bece9ee46,
  0x1b53ce733133e585d2f0c4f23460bc0b8b2a7c817e828266338c31d3fa43abe33ad58b845dc49589610b4122f25f98cc6ea07517397bec56579431d7c0140b9c2f1b5f5cb4cdd92a73dc4af254e4b031638c798af4446a6f66ab65a7f59ec7ef44e2785cac20a3aa12cbedc05f852adbaa9bf9f494b953b3777aa299c5816fb7409ebea018,
  0xdb32d02df9d0e0325e27e674bce4d75cb6033351b7fc943fecdd0a098a056fda7aff0272b00adb65652496ccbbfb77f16a4cc8d5c0a7e34b80d5313c8a293296a36157aaaf9600679931587feee15c5705d27655eb5da9a41f7e47f4f8a4db3da8bffbf602521c4204b8cec26a2f43ff6e4b181f6a715e1a189132358c56bb5dc83a952707,
  0x9dcf157154ad7a84124295f8dc8e899b32a21bd5fb23321ad59973595b67c816cc9d1dc769f968d6c2144f6b1a401a8744b454b48e2467088ac14331c92fc8343739b40edb251ad305e76c1e165a51b3447f31fdf6df218d65be16c8c9913d9f053d4fe06b3032cadd211f86eca1c02838b24a1abd0af63f92545678e42a40180be0172ef0,
  0xec47e61b106fbe1c0b0afd48edcd4a793b868fca26dca61b65756b93588b767b367892fc477bc922ba9937ecf14f46c9ff310ead384a0ac1edcdf1b3227f24c8756ecd6a1b7d220c9ef7a681cce58ba19297ef9c40521ba74c02e7abe5c4aaab93531bdde233e809ebb38af468a9bcf67703f2d158960db57795a6cef8210996a662014968,
  0x617ee496d0db293078eb7e565da1c1cbde00da73617cd9986294c795d23d2b5ca85de93ef39262e2b276bdffc30f06d78d66c5e0100257caba0d0160652aa8269ed5082bb91ee90186f01dee595ef6923d1d422588496519128d25c8bee98062a432fffd5c04ebb943405683963082a36dc5ae80582fe262235a8326e7ee31739dca35b3ce,
  0x7787ea8b3f87e5b83a634b3dbdd75e1b733dde179ee5a9a05f7c74b8ebef7915120277cedd0acd006cac6a320fb52592de5d7a5b8378d7bb08d2cfcd86361c93b76470863d4ff8f754d35197d22324dccdd4d38b159e7dd0ca0967e66746c655c085ab3c4656b0d026255780427a319a2e0d395d2c529589cf3bd1b249dab4b200a404568d,
  0x06b55ba64b7fb771048ad7edb1d39b06a9a183e20e6e372cb521dc240a479ee24cd43e08e2fff9d88d3a2a3ba66c7d27ab23d44bd7b40804cde7cf94d48799ac4c01e3d4939eaaefb464cb5f85da975ab7ba692ce04ba1e89fa854dd761fef37cc5c2f2aad8e3c7371008001141cc2d6774fd23e865500a8437e8a37b3c92da9a4ffeec1bd,
  0xf4bed5a5c1e03bd74fe0f52e5997ff1fe27abcf63f52d7f1570a31360bf9fc02a632ac2cc64e735041be65fb015b760f319a8189e99c0743357b98d43a9d957012d1ee09f6c17c0b4cd5c92b15a6514d413426c13e179d01980ab21e61f3e83d5a896d414693dd570b8720b36bd04db96264158e0f8de318cb8a54483479a96577ee3f1a84,
  0x5a18e95b9584f680ea1817ab735b4dbb28c5f81c28eb165b3bde18a0ee44d83f6be1e35453ab8ddeb649c05707b8cc8bb80b0b9264a9750259d8c8047ed1b061eb1d7c671cb87283f1eb8c6ee1b7e5dab5a5bf31b633fa4e3fba03e0b3bf11169f435cfb8dda34beb5ce286e361d8c01efb5a0aa0bd1729cb260e4fef6d0d8d9ea5c4b6e6b,
  0xaeab46ad870a282b8e3f4356ad827e14f82a5319d98edf37d96c7ffa9f780ea1a5c337b4d660908b2441522482795eccc223ca36d5799f55eaa1d9cc66cb46a73864e1a1b9d5999607f065a6d2a172e26cc3618cff752aeb3c1968d6af3f031d0c78df8dd77124f88495ad761e63e4d6cf4acd3631b3069fabb5b23d8d644c90aa09dc28ab,
  0xcd091775f103c15d0bbd91315e7c8882a8d73cb097951412304a17fcbdc76f8f3bb6341ab3b8e0fedf481dd0aa6de46e995f778a9773d0d9ed0f7ba0f2b07eb575ae76aff5ce71ddf24377951c56b3967234112621db38911ef89759355167266070a621108e36bfb0fe33fff9e51f61c79456e2129186a68f386c185f8f110a9e1d45258e,
  0x2c602d09fa0cdc504b7a5229bb132f9b03bedc0e4282ece87edfe05032dbf2ccf4ef3d350ae788655a8c4f73b5a5f1b157f8d8c141fa10e1502817f36c98b41269afade4f8c46384ba67c44125fea873f4f9d9898a74c92e573f4c3cefcacb9198b70b6379b538feed7fcf9d3d5591ea03e2ec80e75b7e81943fff8fde2c0cf92be99893f5,
  0x65c45c13a98c524462c592a36e5adcdec8dfa28ebad87dfa508487c5fb2f9a811ebb0ded646208c9400196cb92820455046bb2083a524e614c85d7e003fd0423bc991b9d0dacbadc22dc9065a0866ea8b629bc79b9fe54fbdba7ec67a8bf6e36eaddeece2313fd0de92ecb8a10dcd306f68cd960cac485861f852a1c0c19ce4a96655f650b,
  0xf2bc25ef07ad1146ef348d3f8fc3e385fc0b16b6cc6e587cb5197c0eef3881d858d0b95b006521cac083a9e5f02b96842628fdf19a55f31597dac370ac18711c6cf4ad0481e67d86ad3c82e56b2fbd5a13f3b17c8e83771871b0d40a2fee27b311498307da29c748c04fce4c7d6e331d48245f3f871481bd68b6cbf0a842baf4aabf2531c7,
  0x6fea3632f3b4a3df7a54975f782088802690fdbdd67f747af03fc630080fd8d8980e8d0ae2a9fa46144901c2abcfe02fd7a999b0ed149a2db8aca2727bd486794452d54634fe7bb8b31c177153ea0068d1097dbda5a036a89ecec3ad84bde76fbfe41711b14d5a2210faa0b545bced7add4abb83384f764ac4e38e84a811d945cd435ee639,
  0xe5cd73e2156acb8a5a35f557bc2f1bae385391ad0a42b70a5be6c2e53c07b1d32f58442f21798bc31878196a650e83d4006ee1d01576423e98ecdadc6b7f0c5e4b89815a67c034c6587f2bc8486bb925879c0478263f2e202d870ff080df860ee3bab045de1e5ee76c6ea884e3b01edfd8278f36f32fc50921fa47e897a6b07fe69a4b52bf,
  0x88dc1547bca685b42894e3204b11b2cb4c2f10b4f79460f07b25da167340788137b53aadfefba24b90135b59e5d5cbc772f40b4f3c31ee0edae958550468f7524ec3e364301bd8da2f5feea35000d1651250f789a41e247db1286a4b8d5985b82190171da3d1c6dfadad9d3f79a2490d5fe43d8ffc8143a1537db64fc5d271e95431287349,
  0xd8d21bf84cf50481b8b458cdc8de8358ac2180d71b301e82bceef74f25fdade1b8a3654a582807a51ae89b0be648540e69fcb757ad97bbc8ade0955e34d5b5230de67d2e80e5d1c49818f9371f4a049eb9c017d312d87a61f76115b97625ca2a2df01c6581c438d02b5fecbe377307a266e40f4b8671d3a52a11162b81c672d4cb65e2a294,
  0x2006d0f81def4c80522f7e34cc67897466209255c2d3aa6d49afdc0c0f3ffdef98561440ec10bba6983890506a4133115c9f16fbf190e57f7d0716d47ede26f91d0437bfa650a76aa28af1bb7f62e3717327af4be8c5dfe3be37b86fc31fadc353cdfe44a4988579796baf75848354e3d3bf37be3053814d01bb83e3b67d1e4ad9907539cb,
  0x932783df7c5c29fc2b71e1d518d9cf116a18cdb9f7f923948d12aa12e16de902e7343b1603d0d7878aca2e752e80d3e30dd9e6d21b5b45b819b083cad8a9a465fc0000f30a924acf2f0df28e12eb086e56b697a293b9664304c9123db3d76fc11e6160fdd82f325c9b1036131b8358d42e367752b08e8ebd13297f04c61d8f7e925494a241,
  0x2f93cd1ee2b03f9403bf6a3497c2ccb90234cd61d079d55660502d48f3423c7b090f82390fbba0c1c565c10322a24ac5d7fb4b56e0a0dfbb769f8f0b95743ef304cba942ad5b0bc2f3e6966f1ad5f5bc2c6f39226a11ed372236dec6a0834182f7a4d4c67fe496fd0cb926ff14503a143f8241d778a3f3c6ab12d442b815474d2db2c950a8,
  0x3672a7fd916a0cd208e8fd698cf8dd5b6eeb526bedee0879362ba8dd2c53b6a8d7ab6548fc02166e5bf072bdcb2a00bbfdbc9957bb3f8aa26c4cb90a389bedef42e8e333d0097501305f1dac96d8949d96185b693988aa540a921121bb4af0f6568a6a97e355672d9dfed4a43ea9a6a6e7155ac7f949a03bcd943b74c660fac0c928bf0657]

/-- fsb/src/pi.bin, bytes 85120-102143 -/
def piRows5 : List Nat := [
  0xd4441c97f7fc2216f63a8466b173a8315f1e7278f1c7dd205f75c68120bff2146e27367b45635e51d5d21db20ed78a2111e3add000217338fd0a585a91d42c24f93ee584b6ac6efea645d947e665fa439463a54b55636fc71d20fc7bfe7875013040f3a53b8866cb6a48efed411f192d6f6dde2137e07188ea00146596d6b563795399b7cd,
  0x2a97e6610428f672eb33e149f25fa40fcacff3a359126617ed4378a8e4fd2cafe1f268c460316a9a3e91050b42c9dca42863c75b14e42faf4cc490dca557f5748201243f9ebd8a8c789535bb863059356eb2ce44b333b3b5887c25e39d156dffcc304c3c48cf0f44235d6b22763792cbd29535e51fe5c17b088637f00f431288cb5e74a164,
  0xff142cc991851a08dee2eabbd9b21d98d9838c21fcda683e89ac7a61653ef3f65326030be3f6b7324800b3cfaa933a196923501dbdba8e284571e1991088fd4e6f64f46bd7d43665e76b7ce20c652893cfbca71263db599928ad1866f9566733a477040a7882b1c1a6dca925c84e62f816c1705e75397c4dfb718fe07e3b17dbe910c38142,
  0x972fb6ac784686c56f660b4219789dffc07b7c1cef397382aacda0b7c428d6dcbb7c8d1b94d5c2548b9c84873aa820552f5ad3ec9b28d1f4a374b415903dec46e70a15bfa2d46d02ae393a33bf17d16065857f104ef3899dfd2adcfe46ac4f5aea9289fec6ce5d6e9b73c08ffd381c07319904e07f4bc7bac7d4878828df1788d8d24050ab,
  0x2c778b97f818fba84e34db470196ded8389aa86fc04cf855209cb92fb48592627c20a7d108ca97a7d501d3352cc2db82900baba454a80e1efaefe84979613e17f18b631636a399c03a3837c71d485ff0ab9004575f58dc5479c3f6e6536c1c6016d637e70155592580523e3c537463691c0f572b6ab4b1e661cc154364e22398217b6e2369,
  0x48ef2514fa69799323ca64ffe3267565d529ce68f2cb30a807122435972b8d5c43869da964745d087c5fc0c0028bd9e2212c321355dc4c8d02e9ac612df0772c46887d425baeb5e7de9f2aebd0ff9b34bbf507604724a4f0abcefba3caf52c19976e508463ee4d53a19f790fc921f946be8ce04a19cbdbd103b35af50daf67305e3021080d,
  0xee01e20be2e6805bc0ccafbb6dcf6ebf61d5ace37191ea5984b250adb1cc3a6f6004fa64209f6caa53526d91cc1a4fe500d1e23a306b49db65a02577b9478b126c42ca58cc94444baa00bb331fa8108bc2c8d5b0d22ef983360736ae37ba3f3de6b1b988b4bc116d3dc91aca09dd200fed00e3eadb58c84ff9a43d1c2f65fa5f40f004fd0b,
  0xd678e851c6fdea9de7ddf3ce87a37b0445c2ce29592b917143878e28db59165bb051a7635b51515f7bc086898105f13567260081e9010aea25924d5603efbf15574c9d4a9e74205fa53ea3bdb26c585e85c61ed4a422b750e30ba46478037ef3b20e257fbb0fea6266f45a3090943e169b8832d1e1804f5fba12101f72bb5d76f442101d87,
  0xa6d0c935710b9ce60818d8a2694869ef3c2d5938d77ff60bc05627c1110e27fa7c07ec75dd3136ac3d023580a2c384564b9804b34bd0f9173c13306d82c26d360614b0acefb4fb0404f8a193e0eb2f3fbd11e6a6e6d9d66492154ac72bf8295cfe14f267dc8004d07c3f72754f0966c195a6bb4e6a9da40108262b3f94a1c46d64d514313a,
  0x703d7e438e25a90664aa0eb53a3616cd7dfad1eeac23a6274a6d4c7e3ee47fa58b2ad45acf8a575a29d05472c166bb5d85a84975d4d3783a87489d02035ade30113ac286adb188c4378783ef74fc8bc209145ab7a4f575b13bbd8aead3761cb98d5b1a7747426f489f1122a158547f97c17fc438519c000dfa9d2afed01e6881b931951709,
  0x0efc61db4bdc7b7c72b4e2efcb577f144ba176bb68f19f24ec50c705b3ec85d5f1c9b742fec38a42b286dede2e8ad56b2eebd33c819f725c47ba6cca1460d8a1bb1e050e5e5ef6f790c8c8403ca4b8ddab13b6337f2af598c8ab5ec89efb6981b859a09426786a5e27c3ab1b293ba015582a40737550bd3e6c4a731bcc4403c864bba290a5,
  0x04c44999d36824db376534654f60ad0a9b8923f9b330d0ab8f338f6a02a5d71834ab876c82beb532fae7eb42379460e6f247f2310492861fc020cc9d1c240aa87b254e2d4e3a954ec3123bdd9e1517dfed50b4d92189d202df28b0c6be87295652d338b1beabd4bfaa6c0878848ffaa8e698075348c4c8d5dbcf1783105857359bf28bedee,
  0xe25e38eb3b9da10ad6910a2128336cf209a367a54f8b180fa7f92b323f88376128ceba3167c9bb6ab27d53ad6d0fa2f1648a4bac119653b34c39b4a914a9e8a8940b32c4a570395f733a5b1453621ecd7a278b0d72dce67077f2704a83446beb205710bde3162ebd8836f1c506d5d747e3b050b2173865c15a431d2c37f2cc0840f2886ff2,
  0x4ee04dd8517e4d2be7915edcc25e5820d8b930f94f0d2acdc4cd4eda8fb35224af4e655ed200cadf69a38265f8ce6ae25144ec4677b800ee728b130df79f8491b7c1edce68c476c5919bb5ac6b00c9af178b87a30122aac7dade12b47cf66f74dc6360b67b348e3b4e36639bb81b98c4285281d72d1a6e200aa1b88928d557eb1fba131c5b,
  0x25972a2cf2ae73632f3a59cd303640b2b05a17fd26b8833423a6ea8e9307906f6580f29b60dbb75019468cdd79679ae223de6344c5763813558a58edd4b5832c2873e24ee039f84c890caec87014e54ab1daff0106cfa002faaea39545e1621c95eab7f30a31b6023de030a8aaf4c8912e88dfafb078932f08954253c292d4609d9689d68e,
  0xdd26e2b08d6c5f6dd93322bc4522357e77f31f7b1d4f7d3727a47eda4ff3c63bfb4b1e5a5ff3d1d5936e30012d4e90e15be46cbed2a1802d04c8fb0d67cae0e0eb67ff891af077f8ded843ea8e9c465b0f60ea981e346904525ed45d7f76db87b5a689eec02d30c76fcc078ac58d8b1acaee84d3edd3f3f41f38db8780ea7f8ab3c520e70f,
  0x1ec33a126124f053500e8c5e923cc9a2c693a3d3b16ac78381198f18498db78c301fc9a06e5930ddc40184ee360bf4083d8b12008959cd5e1606c026d7df4ac27ac270ce38f61229c99d99c08035230daa0b58aa00913a70bfa0f1b420f74906edaf7a23770e759c0863c6f85833720a688ccd013e2c007ba0921ad8341d1981f44f0b5889,
  0x43726f904f98bee14007d068a9e5651e5297d410418d859e46ecb68425fd5e894af99540031623f3c4a68e5ab989e62fae008ec6a5ed79f615256e328a38b09b5e75e83d96beffe22195fe027d50e91024f8d76ba1486becf0d725fb1be7920c1a7d1739e67fcfc7690e188667d45363897a7aeefff6fd92d54fd066e6eb26a73b0081637d,
  0x514c66f80153fd5622b10b5365a68f74cf9d377028dc00c57cb09c2781e8053b80ff58c154c2416a132e96294ffd17e7ee5fc6093886737a56b587cd8002b1a61ea519b3f2efeec7a47ff4f6c24f517f5465d46dcfe478dd974e18e4886e5123f84f65626abe6b902415f66e4ffb154bf3d604c4e2af18931d74123733c25d7acd841baba4,
  0x04a6ba01452d895b4000b6c36f2353bd3a0f811f2c74721a70e5f7cb81be8efb24e1d1f9f1dfb96616f00203f086cf8cb64a28a0e76b266ce5796940e4fe10e71d66ec9c4a69c7b26874abf7103e1ebf48e49a1fe2a73e0c2a5212f2f7ea4677cd5a8d3d6b1173e27e702eb8619571406d2803712c79fa7cb6ab5c804685741e6c827b1a46,
  0xcb30fb5507f9d28fed244c3184ecb49e30d419792ffe743755dd014afadcd756248464822332c8701a93cda1d44336efc0c0726ce57098bc7d1bfe77aad55ba80c585862a607ba3b969215b519af877c94e4d05891131e95a71fce1220b237034638047221d0754ebee80603d70d3dbc7cf21aa03ea3c77f707764c9d7ed69b34f44600515,
  0x89b5396b37f12fee2c450248ab01767c691a9ea3a487b52daa59520386a02abefa2486f08d4f10b81a6d89bdfd5822ce6fd2d9199cfc79ae9b02e157c80063beb817ef911ad3cbcd910f94d3423b7611535ea295e811149c0846286489235624b740d4d71da0b765d8b41eb38df5b134d11ba598fe869feee0baf7291e55dde3cbb9d8e7e5,
  0x75cacfedb4276959103d4546444d0a63704b5bb78069e7386af5cd7fcd1aa4dd309fa250886a592b363c9d0e181b9b67b12a9dc3e5c58225f0ca75b8819a44cde4451dab4b3b8ecb0e6e4f0856eceb56633d441660e21dacd4f47e81d3a419835ab769030a36bd983794907ecdb9dc1c4066f4681051ccb1cde1e29f34604ec0d34c4e7eac,
  0x64bbd81d770cde92f4e2d2ed23c8c52cd5c92890d5002990d2168ad9c97658e4c01b5ada6c7fb6aecda06233de12138da2c5bd7f6614dc21e64319e5334208fb83eae9f943ffb3c905cad947800c1c253a598d2c057b75df1c2a10b78045af6f119bd60029c3a4734d9c06f2a3bfd62afb8a67e9be837b57c14c768de148efd34d57c3ce4b,
  0xf301b0cff5844bfaca237f67a2b7af5c5faafa1219eacf04c1799f2d8381107e361c242b6fc41c11e4f1c1c4ecdf70620ae42ddbf1a25322d8ebbc620bdf5db9a890a8bfda7821b5464f27914e85af6261640e0db64b032f3060678428a0e288b237f1fe6d944c885d11e7fd55310246f39b62a619b120483fc1f2dc0a590f8ac157ba4a91,
  0x32aaf7d24879fd544615831c600f529b01174663a7106a77cf35c705f7f65300f0e386055c3a6eb59ee85d8ba036ca90280d5a71ae03b884fae3e47dc6dd5e919ac26094f6019eac95102d5719670dd78855187613a9fdef0418c342eb99fde9911a5d05f0671af0b56e9e8ccad37c1f23cf067ed01fb3885b3edf1c2b83467c5df5a7b088,
  0xfdcce286abfc47e8ff7eacf570b0d99515e56375028746a0703bd2b08d9e4ceb28a19d8a8c11d8f7b72f318ac5eabb02836663e1cb80d186f1dac00a7e540dd5c910942507555e4024a39861af72b53579e79643ff74e71551cfd562df0d76005cc0c9fad733df30fcbba9457885948c718591685b1d2e75bc418366f57668cbe9fee3887b,
  0x8b037aad836e7037e7def84d461dbf965b573c9f825f7192eaa5e4361a7334c8cf5d011f33ee7517f55501e64b9acdc10f5383ffcb832f9ca00535a56348f8439b03c6461ce2a1aaaa4bd6ada371829595d2526e7f8bfa6d020def11af8842cc12cf2cc27f158a714e24cfe25a7b044440f7be369fd7e4d093022570ed1adfa1f8c8856302,
  0x62b6b5b9c2fcdb91bd075c30868e8405ed6a1b604dcdc3379147f572bfaaa91027ac19e0e0ea91fd8b9b245b31ae458017bb8142f53aa2c631a46adf6d8f3a6c5584f9dd0261eb43dc16bf150525ffeca5b782084cdca8e5de729c59031b42cc117cacbff4b2cb605f6b32fbf29c1b6a99c6867e6ef679ef73e96b56a08e49e4b2564c1dae,
  0x5a2dc9c986d021a25d50a9535b971923bb543fa6c5ac5bf683804a3d02c6d5c1a3a33d3a1d3272bd1dded84c20781c2cbb640c1d8b0260ae52634a9d68196c08ab9c4e650b9875ea14f21cdd61e8e3c99e9d6598287c22d1d96267b1f2853c6b5780288a974bd0575e5ef8a9d19c2535b756519896c2279ea9f066c0821007e0fa6eef9abc,
  0x49e2d9225ecd3fcfcd66dd922ccaa3662f55b59acb7d27ac4fc7d8f5720f77d083f417ac527a2e84f5a6572f3578db7842392b900802acb80d792c2ca740c96c7fd5a95a494a2f0e07a4b92274da4578a4af9ec45ab72b7540eb71994cbedf8216541f715ac2bcab0348b6f9650b1906f9f5d57bd6a6042bf5807d3c4ab69817b6d3e2d70b,
  0x5cba2d7251ff67c0a172c3b9d7b8e5450d67172e792063940b816fe33a2d6d4ecb1a7f58beac743843233ec4da1a841dba815e92d3bcb221d6b0d140f6fc1e1b76c1d17e3910e0768085fa37011b2cbaedbac8002a88414b3a951681f7bcdd99663f31c7c905ef7f78117ba36bad85b73e114b77997cb73424156b6f4fdb52016f6146419c,
  0x158ad245c666986194ddf26361f8dc9220e98239d05887dd103480df9543b526d388d986cdde36c682163d10549823eab4be74674f257699a14ad7dafd243162b2bcd2b03d00972a478568f39baf22a7f16b04db878275c20d1f07d226ee086b581a6e89a856f5a6b43c191f854a2d2410cb3227840f587ceedbc8728e68656a1b6564c1da,
  0xfdb96e9a7b937f897f0ae9d35cfd3b91b1796e6e8b284a900497f225d736fe9f2a88210eb4144f141245434d2ef060ffb373d3180fb395db71fe34b89d7e28b91b667c9f62ea3595fb33caab2bf3de8f0b1f757a30d463e6cf17143db47b89b0464c4c9702f2db882b8be978bd09688c8e4f17e8010436ebeb5426db77d3362483be8c52e7,
  0x4a43876b410c2185d41ceb6728bd7b5814fafc8e4f61782fd1cd66bcba6499c01c6bae8ceae87bccfc197de7b2580852e004faa4376cebf4b674bacc380cfb63f0fa7d007c9964285f12e391b22da438ec0e1be218b8ebe2523eea048ca08036821c117487cc09b68a906dae1ebc422e032c9318d0ab75842bc73f16c0e96b6827570a4388,
  0x61a63ecce98e3a3c1b73b7fdd2cdea45d559a06f45423a2d0e84dcde9865162d61777584156e0e67c6bae0b1c16c68ae6f93c5a71e4571d630bd851035a0c4bcf38411998ca0fac35d505041d643dba8b51e5b137917b613220f90ca0abeac5dc552b90e4b5366706c933bfa8d78922ea5d4d59d2f9e744668174fd4d50e0e1c5c35cd4df9,
  0x4ddcdec2e059cb2b516b8aca45e0415bd147e9043c8c36cc8e2246c03ddac4de94dbccfe13373a920734d3c63d6f4597b906fc3258133275605e429b8b15974c06d5b37eb2bf0e9541dfdc9eecbb4882059b3217bfbbf2efb4ed39e8d91f5f7b4efee6ca5995e9f1c6a635c049b3778448ac392b425263d843bb763a1916f0505282c131fa,
  0x463ffe18dc3b0d489df0cb232e6d23a8bb2c0e6882d9a014e5c81dd6c648b6d9819b6144163d884eb4a7dbb0cf355369f0bbc389b4c6d8eaeafd9563aaad160a9d4e6a434e32d9664c3a5fb90d3242703388444848754d242271c1fa8882fd95ffff4a9131acdc1973e025897afddcf66482478bfa6b3366551c4476f463733e52f8e810b0,
  0xbde2aeb1b05f92a7e8da093be10df89b351d91d4e3fc0da7f5cf403af7db2bb1cd144782af0426758464cc271cfc51f1c8d07e43dc30496d3033e1f9e7355e60dacc91a58474892aec6d00d4c08c09a9a0f90b5bc31969d6ae1fd7cd873097dc6a5faa699f7e5922d46f20d5b62240d7104b0832dc1ca641651f5782d82b4e340466af5544,
  0x31cbf6a2d87849711c8bc672cfc0bf7e3a85017778b3989f0d40ed6c1fbb85eff892099aa3f22a98f304d7ad61ea8643877d941de6c2fe9dfcfc32051b7d173ad284a29a4e03097f7f50e4701e3ba3f0ca981b274e62400d5b3d90cf4a4707af7da8d517f4a7363facfb83e1520afb18632afdb0858580014ef95278fc95d3a04e85a17a9d,
  0x4f84b80b24ddd1249c44713050d5b1e49ddc2286ed3982bec073f38d6e4fe2210e82bf9f22179b47c75a741897fc65d95e8eddbdec8ba33efe281ab07f085edb466f9f8d9388c53c5485de8b5329c2a2ee8542b8f129dba648cec3bb9abd0589c9bd8ca198c076a37fcd4a14d623ad7f31b1f274a1273c5a9be6652051fe9af8cb6d7257e9,
  0xab52c42b07fee07883262dcdc1d804376a14e6df01e9addcbf7c7d2efea2a39ef546beeb642774a312d20c23b2115e945c1227ae8cbe03c7e106ae48fee10aa120c6bec33f2895bfd9d3e9d8e962d5ad66f0e734d72c3d6308709dd784f33c25102bf1afe84be2828124fb22b0247ad35d140f4b8501ed0a11d7380127a88f2b0a1c875cab,
  0xcec0410a14e12246a485639b145d91291e100ddf74fd06d14a0e59cdd9e8d493c9bfac2f69bc8a8d2aa7932b9887b7cd0c9ddbb6e5a8529f16d4e7f1d6bc7b423479a5f16e1d1f6e99c7ce0d72c74ff5d31f48411b6c5f1f3195c1ceb0206ee1f5b8a604fcad9cead5bc4bb9b0034a9e0f6acf4c691932eeb5ff03761088c346b193625b54,
  0xca32595b3f855acf17a5f344b60f3b67141fc10a83be96834cc556bd0ea32b9f0ee7a6019c5d024a8692d3386ffbce79f7c4c7aaac4c20ea450184632f284a66130fdc25150db2712c33921964a8e2a4dcddb34543c61f7ab78836a139904450179a0e61eafb089f39aea09718f9a8757d4387d4c43b82cb0db62d14e5a4fca46c6ed5f056,
  0x4605fb4a5024bcd4b2a27eddbd6a71e8ea0926a08d016069efcd4bdab4d158443c6e9e026356036950a9fe72972e1dc4707b92a5df2b2b9a01208bc75b7a7349a65586a8e4e83511492a0fd93a7c39866a79c13c22bdbb7c9944aa1d221c4fc918aa13df98595788ac54f5e43a277a8aeb60590219e937e4726848df13977119a2f163a79a,
  0x1933968ddcc0b1c521e7580dd35a98b2aabf2c65b1bd00739d8acaf07cf8deeb7d25677eb09218ce5c8fb4dc85de4b0ebac888dffcd8cf774827cead59b89d49251137a7049df99f5b9b80f8ea38edce879a12e5be8fa0f1e7eda5a856a8ba9b745625c6783057707287ef26c7d49299ee0dc99c3dbf587a7a19468afbf3bc442052358fef,
  0x4ee6e29bc7373e99c80adec57f85e8c019fb2abfcccb12a4d24e7f1f3d04eda394614d27ae0656d6fa8b808d46335c7ca6b84b02d53492ff6c9b3a040a84d4b98de7f569b50bde8de1eb66c8d525c3ab4fe32959063858026ed52cf1776511762a8a1b7fc0ff238c0a8341676594226836e5f3f207c5b87625c5f0839600d803c89f3a8046,
  0xf6ecc8fc6c56c4618a46df93db3d1db873bbb30ba626d3cc45aa5628f0e6b003a716b33b4d14e5105d36527ce0a888a44f8a218f690785db362e5c5ece13252e4de7b080faf9ad63dc3b91287c490aa12bd83a346ad6e0affb4120db9101368b3b2f97be334d934c89eb24b4626f38ac7fa9b760153817aa33945f3f3c333e41b85f6d1dea,
  0x37ad7ba701413bca1ae8f6b98d4b4fdaa8449630158ef8f2c29624707fdfd519265324ca49a6f0de2c364510ded250be6da8364929f28504276a07c4634f42f8dfa3d319be535da8b83c0b16461170b9efac1e1a176a91a855f1a6b19a92894ff965037530f581c370226680868eb220ad8f59947ad96cf9a45e82b8e9f89f9cac2fafea14,
  0x8029e431f4764515d3458c17fb5c361af22d4b35f769eeaa3eaff6732add5cf02aa34f179eb95f9f1ac9d3a9f93558624f28362dce6e656474727f3ff0b0efbcb1140d0a87252a91261428671ee5cf854f84500f42f71b6543485ff176be05c246025ea153c850102e77b029d22cdcb25d91a2610da4ac21f7e4e61d2ba6b18ecba28d99d8,
  0xf4fd260721053d09654b0256f8aeeb7231b611238355e4995c218228c2e5c7d269c4acab517e7874384c3627da670e26a341c9f3f594dd3a13124adeeaa182daa7a3de73725b7794e378baebc3c0c1bef9ea1a981fd4eb3d185b6e562d6c1bc45f84d01952e45c01ea750d7dfbd87bdc240ded77784cf78900602ae11bbc450ede79e9c657,
  0xc0dda46ff349919010e674217278d9342ed2ee96c33bd479af753f3429d6c8295e15cfcf70fec54137e2f6cae02e94ed17ef354625eb681feaf00d42ea228f14664c15719de1aa5748dfacc46672f861b02c6f7c1cdac3fdc33b3e06499886ad905e0741259498dbe6bb70aa29777c05d657b62467e8be8d098f58dc78c0dfbc7bdb464a7f,
  0xef196471650fdee7fbd187a81e516c88578f9e12dad900103c294a857b0c457406cbb9176471915c36b073859934e98a6768cf5a285a9cf95492a4f1677c0dde21888dabe2905009bce0bd76ff1cedd2075b50f4d9cd81787b6e3eb2982e08982cc160003e930ae13a871b51dd152ef19968a84dc2a61937286f419c1767081178979b8db6,
  0x7e6c79266e003819333926469ef687686b779714cb23ce7a663bb1294a2f2cdfc03eb9d4750be906c49df2db8632ca7718c0d18aded292ce81f0cbdcc4cc784f77d437c7542bea3675a919c9bf61a6e26df23934d2d2a84f75e8c36e185c26aa84c04f68175ba5856a32c9edcc765ba3347d69a00852f6d708237fc33cbbba4d48d7d1efa1,
  0x4f316071d3336378739a989b687223ef1a33b7c965fa54392dda47e4a2a0b1d7bd013fbcfad43540070cc75b22f81e5034081fe37f484d9990de0673e3d9b68ef9b42c77120f27f2690ea6e3ab57ab1d461c9cb56ad5b8fb53cc5c81f433956a8243e04bfd69e183b805eb7bddff0c0511e7efc04903abab0ee3d3a835fa5824103d9f1c4c,
  0x50b7fe54613a9a8fa5b1e92545cff55a9ff3ba89d46cff2b74a8b4352a2efa54f6d3f1fb3fda2df703c239ecb5620ae5ecd4b827c0ed8f13a9d983b0df5a51c0e8a75e41ae817435de0423e58f222d5a6614347dfce4fa2df1061ec282eb29c59862cb3c2eed44590a7d1624e96bbcaec6e130ff5360506a6167e5581a1fdce6bbeb86cc81,
  0x4f28efcf71064206efbf516f8420d18022ed76bb00e27d8f03dd641918017a6c5a3ec39912942e03acc7150eb7ee1e8826baf25ff523b60fd0e98fb8f54c6969326a4c8f557d6a4ac0d3f18871e7b4a25beaff783d1f528421b8f0e3c8742b71f37eb11732ac5e5b7dcfd606cdb9e490d87665ce9d04a69cf0c8d509c3274b23bdf514cc22,
  0x86e2c12cee071dbdedd67afb2a0d754e17810eb868f01738862a6cce264bb87fe4fb0e2c24bed84c6a0e943fcc69f83209fa8fc4e036fbfc6f15b0ddba9ba27c6183930f9a858e887cee7ec11ce00591aaf83df95d577343e5f8ed31655f28c54542cac1b49b5f1cad958f07a8f5d5f373ef108d86d3517267d1660b686add27f4ebe8d889,
  0xd732bc5c7ac7a48d5af058da54476eb00ab84b26e16b800caa7ff38c823b2b18a3717c865cbe90ba9d5c94fe35a3ab9eebd5295a521ad31ff92d99944f9ccb753ff3e7e577be5a49fc95c697170716f6ad5278d541d1f02d283d5fbf00a401e64581dffb3c94929f4ef53822882c0bcb21d240c2ac77e64567fcf8dd5e34d1480f91511a5a,
  0xfc6c8765948ca5c206d3c352c69e45dc5f078b6a5590737aa4593de3186a97e20249aeea7a806046da64f14a90d0276c6892234cdb039715641062a5ebac053969c0d56d223091007fe99079fa7fa1604a598f3a65dde72dc3abf74d4500f39bb4782b7a0c9f18f2932a4279eb5e80111d7f6be732875252aa99c5115cd9f3577a195a680f,
  0x5dfb9d0d570c1a92709a87eda952c7dd3600a21fd11ad121b0a3b218482a3aeb6a3b5ef85865af9fa6633e0df39c202c2b6c1ebeb48ca99c77252669c6b42e36a5eec00b0acc6c1a3aaa0fa88efd25a20074fa0a0254265ae17f70526754dba703ca693d93b3489fd4c76a9c555629f3a0e97a5fc5b244bf7275b314bb66cc045aaa1c2838,
  0x096ab3fe22270a39f33dfb9b3e0217aedced88761940052ccfd422411dbd41e60eedfd2c673750270e3f313d9a5ee7ac18b455aa63a558f23d8993f5ee0ff793245e69f8e140b17ebbb54fc979e8f3e0d036d47a4de50c71035b29ca897aa4e6d29d584313fb2ae04197d70b5a3407ed7c0ca560ea6631326e91261da49b324425bcbc2528,
  0xa1336c9559a303fcbb63995928278b47535979e3423cfd3c8465d54359b49dbd18d73f9f454b470c343eafdd29374567c6dc0cb9db63e56bcdf6843ff06fccfa715f04bbaf9e01911945bf8cb94828173ca03d904738cdc4ec3fd6c7ba8abc33a936c2580a074e200d4e0f8b845b1854e89e3ec4feb4c4e49a964d9a13ffa21353c8de7a58,
  0x442f2b31a2f7d251772a7c88b2ef3562ce135c1c08442779e7332461b6597e25da26788b634e049a15e1767177de4d54fcdf59de4b3f96cbba834dc1c2581f790bad1dac0ca4b932b1ccc4ee1209493e04e2ba200c195180fca689b9b19c66088f45729f441f3fa1329be05aa43da1a76e8da5a17e8a350ac8965b4ed70be56b05a2c17897,
  0x907ae797b8b52c0d01049e2973eec838eff5bd0a27d98b8ecbc00642391796195d483b0bcb4fb5546af69cbcd12d74420d6f5224b8fcee3e053624d5f2d44927a3ae448427b1853ce6bd6fd96f2259c5ca3470141c3f0a387eb2dab4aa3650369919b33caefd3f2e2eaec0954fcf1c8153f8cee5ce42d42c4061a56d7d1690658c2e963f1f,
  0x65cc82f165f05695f0c7bed3b889395ab43cb4ca6bc29c7a732bf97cf76b5810af446d88456dc9d1116e083f7d725df483bffa66859cc4ccd3f2e16a362ed7b9ec3e94316a1519d0eacec93370e5f2d93f631ded6504ccb9f02990c557238a3bd79c95236d64287bc708d3981327c6f778d9a2c8977d4e2e83afdbd32de661bc8ec09df64c,
  0x1eb4fec3a011461ba7c8b9b1e9e9b74486fe417d2675080d96e364b47ee1015b662930a6a322d8c53c5ae7fe2addfa95cc1eaaa02a2a0a93795a49eb7884662956ca45ab12689e0e64c36d1a9ecbad9d282bf2979224d78e006d89c6ecf77a4815afa53e780e37c4a735dd4455c235dd3c9a2836620d97d4f52f6b49c5ce30f7f2608391f4,
  0xddacf5e22022a29768b01f173650db6c783a7a8c91d8b3235d91ddace5c34a96db560d29cbe7898e110826abc30add50e2b22042cedcd33d13b512fb5db7dd62c1e5411c57155b9edbc99d990eb524491b765443c4f04a57436a45f1c761004d2b09543c2e84910ff778eb4aea04f889917001031e6ed2a9ad268b75189730b2dc655d82a9,
  0xe46f200958a5cbe4faf6028b9297938618d838cc762ffaa1ecaf4c3ac76ac70edaf6690b4c896804be24860961635f669f9fddda1039a2dbbd38c968987dc96e1c4df4b8402ea54644cd5555879380a527769e2856ba0e0f87430f79a14eb7b53633e7bee49b5252b57d46a232eb6f62e0cd83c475e3614f97c93aa2cd3d62e8cd3b82d72f,
  0x351c8305396e97b01d099748fd5d39688cc294a4e9fd81c03dda13e0f8b7b0fffb2b3b705cf3e6afac4717f2e9ab37503e03b5b46c5267dcf3ab013c8d36eee90ac504828a2c65a8c872d4dc98479eae335dffe9ad374bfb039db87ab7961d7da41abd5699b557600a7e358e715436622d8c0a8176def71ad96bbded29ad5d6164a6cbf36e,
  0x52e04b02dad20603ae109c2cbf2c7ed26aec8b62ac1f263ede7792093c83491eb85538fbfdfba1d56d239dfc9a6ba0040d228c0336c31b524bf30e65c550f9f78b59e154bf2a0a0def2d9e6941f9262c4b74cfc9ed398e7ddbc3a73aca59d31159af81c16d44d12a3ab56e1b8f595539f9c9333adef152827228be8d85fded03601e3800d9,
  0xb71f75d38e8c3f175533c2fecca964b36fbfe7582db0da663730810042261e17cc006b7c2cf9a925a2560beb1e253c4a4169ab3ce13240bbd526430370a22a9c81a8689eb661a20e2bef0ee008666c56bec568c4e27a0f47ffc98ee0a6a5d02eeee22439bf313deabae4c7001d9b367f81c607440a7dd4e6be2a91173f4192dfe55a05ec4c,
  0x38565c9bc7f1da6d9b1fe41473beff1a83d61c23bb6a0dacfc73a436c13b140af06a479185c5bbff41beb80972bf31b4f527808159eca84b8d32ecb6d1bb521299698c6fc42ee54701bed9320b5f90e1ac8b809885a4b9e23ac4422ed993be977744a714cb24cfca37065a6371cb637f19d89c9c24137ffe0400b3a79035bc786aeff9bdd4,
  0x1e0ad962e1a2a8ecfd0080f222a5d28614b91e100a2d4e09df0b5bfabe5873dc6c7393394344f073ebc814d3e8c82ef66ebe512271925e075ff525f53ac605b56aa672e93f01cbb2356b190671a4bc01892d28e996f7cc179e9e5c939479aaa9c4171930a9cfae4a546757414ac090e8ea11996025ef200b2a5c07c61e2963bba8fede19a7,
  0xffd5219aa31e923f68f0e2e88a9d62a7bf1b35b1387df3a668b33145b5c85607ce4352216ae3c44db6e5cdc8b1e5a1c3d0f12c52131cede9f8bf456a9db769a2628ce234a5622a8b75f14faffc864348b1e2c3d085afd16b008c97d168324e6e2ccf658936c3cd5f1d207f5eca9ea25da45cf6329013ca7ea92f4a16a9194f9160c13dca85,
  0x195c1555a805ec40041028b1743dc7c9feefccbc972c21f297dcb79e3309439bf3b87717bf55d107726bd76cc9be80c8eb3c80470d9cd62a183b4979ebb14046f88c474a95fc4d9a84a6646f85422d858e5f7c4bdd7740096cd96175d7a4ebc7f5e3d0457befc15fd5b40ac027c545ecfedf8e5e0c1e6af59a4966f9317aa201bbea34536d,
  0x298090a33e098e72e185f89d0150d4393cba2816128988d86cb131972fdbe32862bebffa51f05dbaa57bbfdfa31f18f7ce542d875cf7ebaacb8687d4626e0c173917f85c699e80a976e1d6c1abb2a91c44e03f3ecb0c48a811631e83e4471f5e2c9ab343f1e57820ff9bb2c42a8b256b1296b0d2a716e8da9bac46b42dff97c09797af9798,
  0xbf712a2efd37da9e1036de8a890dc3a8a41a0382169deafad75dc96fb3c269666667c998f2b07124212a4d267d7e9b2872b8dd7cdfbd01b03e0687dd3dcdaacbe343065120f47e81dbe06ac874389ffd218619153bba719a4af3c351330d525bdddfb808a338ad96ecb0bcd4e0efc1a7fb63bd5c4f5b58488c78cd6476bc4027cffee1b7a0,
  0xc2fe818ed383306a413862be2ac845dc440327128845811d2f07fa9e460262a7a18df128aa327042adc87f93b6249ac67d79459398ad4e31cb36f7c448ce4b7e03f75343a2b4b0c59c6cd857dea2235d3efa2a96769db8486144bce446ac1704036bc86865292da98f07d03805f1faca15cadbae2b1d6fb34d7c6a2c7c710e5b0e76bfd71f,
  0xdfdf50cb95e706adbe4777ae8e2c5b9f8e74095bd2f6de2d51da9d031736435ff6adcde1db233c5687e917e6e5c732ab96b0e49425afa7956d5396ff028bdd58bb8cf4f8ba4ad79ea75d35d6846c52a6a9beb7a8ecd1417a671357e5f0c8c4c04c1742570a8e71f319b0aef1dd2fa548ee3b1e0908e86fa9060709c37731234490f6d44e81,
  0xd1b27f3efd6953a21f96261b9f688b214d530311bbccada115b56af65394ecd3bb091d05f1a0be67c6b116cb1a7801f024c92ac08d0f10928727129c8933a6c8d60658e6619589b5dc6ec180c3762d97ef3fd84f77ce85c9fb76ce0fb3fa8c58e644bf11644ac0fd4aeb08cb624bcbc1222174a128647d5ba1d114f7759b255322b6311ba1,
  0xa35aa10117031b7959f4eb1bf7e01bac714daff26af2fe7d376e61197f7211dcca5dd0307d5cf3746010b9dc8d0c336180381a7faba9c46f0958f8e4daa00eb5b5ebb5b687ac7159e722b3c6e270957a5ce4d13ce48417bc1db2ca4e77fc5376fc7838ee12c38de44a3b0028f4b4c2db25b6d51c369733b12c6c8e992d7bcb515092ebcc87,
  0xbf801da8004f4de5eb7a811f4f615d89c6411cd0b9a21d0908a27027388969adf64984d672247fb6705e33d77257ff3d4644cb390c143f2b77e91aba35d1569c2d4e248cae818cb81c5d239d41597b7261cf8c3af31b126aa16fc7c692853b447423171f9da8762dd780d766cf6f4d1322fe3947c45617eaf3cf4222a5999ade5ca26544ad,
  0x9018c85cb57e18a72cdeb070b7a2475514cf4fc96e5b6b01ac86d088c15e68bd75781edefbcc73b4536aed901d5a45594f29962bb76763a19ccb3e8bd6b27dc5eb45202844b4fdd30ed1cf3642a7a2c63f325056cc16d6065fbe3c5671cab94730d58e505ec40d1515958927447206c2096374431304188abd781e498c8b7a8a83d9451f2f,
  0xaa84e611d4143e641a198385c81fbed051ca79d46a21075475ac5d2108e42d548b49fcfbd7db95aa2036781697aed955706e54d3bb44002a956d752b818716069e5b833ece26337704612e393e9c25a0c34c0e3cbe7981e4ad1086ae87eb813ebeef62805e78214a489ce517722e6d99f00511eb140ff0f6a049de5b8e0acd794e89029297,
  0xb1dede37d1a36c50f6a293040caa4bc09034290b0db1b7b66c19ab4cdbf1bfe3e44ecb0eccca66117e4c3a111bd07d2b5f3a029b56521ea31f1e74e02afdc592dfcac287cc433f5f19bdd163b93a06e3b8ae2c79861e0bb8af2cddd7b59e2ed094b6aaa80c942e4eac3193ac29a7cba9e995edf5a8aa19f88fd863aa1d805b161e1235276d,
  0x4988472a4a7ae442457d50f5995d0489203c7647bddf98ea9024e926d24599a0003676929deb343f4c5d3de6c77b5eff47cfe6d9866e452249e5f0cf88ea8f8d4edadf58967a035e43712926cfae1354a271dc336ed00c14dc323603ca06742f76d90f4efd8132966dbb80b89c18f1f7b9ab7ace6016944a5bc1f258cd31dbed2f906b4bbd,
  0xf320ea383ae527d23da9a7dd99eaf344c509c24db7a54877d4f6b26f5a497574442aba0dbf465b9c1d32202312151456ab83fd60901aa86e270820414ee8ad2e1406871c8d395872c10b97215fbd2a0198f6a4c09e075c7ea74ca827dd825f9292436a991be508e91abc3001378096b75b9203a865571dfdf5705419a739b1d01cea745de4,
  0xa128b2b3d374ce0fcbc660f356a68fe62887d5f6db1ef1167150dcb2609c46ba35c40ae9e8df2a3efc5825b0330d509fb7f99dbed1cdcc705538f602685201662cdf036028453b364bf8bd95668adadfab4d52a9b6769983851ad1b198c740b1cc043f6079a62926237b634a897d9b5ee5d68ccc9ac5479dcfaee08f660b7440a1a5dfe240,
  0x52b5dab6a436bb0bfc6c0537e12f412628df9b4b6a55e54bc1ec81479f713fd09421574b8c5f743bf874ef3f92d38c44c1df6ae708d156f67e4fed374556e3b8a269e7157e28e3f8dfdd28f11d16c6ae603898d000c402cbc51b6ce7c9da28d42cea9daeb976e1fb6688f4b8f4f363698f28c05986ff2beb4a00ba9ed88e029fdbe343e791,
  0xe74a899ab053d137fad9cb0cca41c1c8ca0414a995619c3ddeb9cfc671fa9ccce69f1c7fbdb557eefae899b610f99dbc385451caab10a057dfcc84d8d19781f73855cc8e6135cfc074528ede3a6c5990526a43034015d4c89677cc59623cdb67d720a81c5ec49d6e29f5c67e1e3e651de1866bd1afabaa76220ae3d0a0ebe417b6619ff542,
  0xdee20bbe3859b6b90de248474eee199838916e2432359ee00270b7ef7de19d0439ad074032c2caedb1a3898ca8014c4a16ecbbd1133aed7189078da08d3da42b6600ecda32f4bae83e4d302805d7e994ae876344fc6c0b783197abe41f5975a25908537924079d9dbf50e5742b120d334f6c66568edf3cf576bcb07008a08cb0f844610fe2,
  0x76afcbec04c267489d4ee8a0cdc07d826849fd9f091cc2cd52072d2b97e93be4120f12af8f667034199cfe5dd9f1dd6e7016981202ff7af601c24990aad2cdc0e1e583e5e05da973fa6f20919ef3c403e7e03878193e34219793f93966cc55f4d0d0171aa45b8c0197acced35e53c202b04afc6235bffef12cfd9e64ec22df8302c2c422bc,
  0x1b175ada424f2fc5531f1af75e918d88d0ef1060a4dd773d13d624c1230d7f7be10e1629127e9a2f71c537a5a2a7d5e9419bafe8f4eac2b4e95f6641f89b3f4332709fa014674ea428b68532032c29c74fa674945ba85c951f1c5b69fc30c58d347cf6d8ad60149c182d50504ff80ce6c5927c9c38d8ac442f9f8f5a9c54667775b4bff98a,
  0xda8e2aeefe8c5bef57c924e719656a02835a761aaebbfe90b03557c1285b627c89472ce3a3340b5410115c46268b3be6e0950638ea8235a29d03307d953cc4c0f5238d926b09a75cc3066c43d87cd7659a7cbe8cd2ec457c25e40e5a07ff51ab5a8da927a5588ed76fedfe9b548637d2d8b2296c2b4e992c59d717f523300b9ac367f463fc,
  0xf0351467a4d5a7d79def252bc81e7e44830a7b6416af7e999cc933bc09c85f2241fbe10ceafa16746c2cb5a8a2b14112f6e6b56894a69a36308d2f6ca14a164bfca0b0941ffdf318f6cfbab74f75a041ad493aaec10a527bde8ee910d1a9a60e6296d1332dad09b23fa31d569c1a6bfcd7cbbd8ce674726d90da2994090c573da7794e7cfd,
  0x1a0b72ce150685bba5c650a78a7e5e20a517cb58e42327bb24acef0430cb8cd467411aaa0e40436f069db702176bd8d39c6c4bf07914886ac563c94d5a5a73d2c424dfe2014e154f75477c942da57bfc141293e199567a91feb1e32740d423df8f1f84750f0d58092e5acacc16ff5351b30f1f525482f0b7644065f4eab03e052482ae4878,
  0xc6c74cd3bdb6678becc73104a52be6a3d272e701a206191be5554ac4b72e0cbfc568e6b0279478a0f922d113916b30bb5f153ffbef4d0c8f9bd3ea3ccaf2dee9fb86fbb51c3b9d1b4200e5d500e21a72ad6f6c2d6a429ea8ae732b713db973ae4173ee4497cf7dc71c7976a723ec2da9fb1ffb9a987bb62eb070a59c42d32ce9a0e6001d2e,
  0x4d121e3ead0091cfc3459a0f8fc922c65ea23b89a39ce13b362b33206b312b915a3895f8f67d51b31af6e847a310ecb671bef44f2567f288a1ed724b7aeae98ab1dbd26c09d3030600eceb9b0c7a5a3de888339a1f4e507d5a1c2bf51d247b9260d3e688cd0c996b51a858d89f0e1da0c4d59b8aa8e49711dea703529acfdd8692784b52d0,
  0x7dcf1189701e161c3c3d1e81977cb27af12e07fa6d4e27a945bcfc02687223e0ff23d813836afdf48a25233197ee46603ac5b429b080769260de0462185228cb903c855feaeab6c54ac38917226964a0a62c2e5db9d633a91035e43e7ea74a148b6738e20fc071d34058190692a3790dd6d14dd84c99477278ff6a71cebff50685ef8b1578,
  0xa9ba20499fae6fbd1fd02259036384a86f1d177bb55469111463e70db232e482fdf6b0771ab1ddd6a20ae18f56b081333a37ee6b5f1970a5c298d68ff93e565f0b431d7521cd9abcbcfaff4ce61ce678c3b59b8f130d3a5c652bf237327fe1aecbb42830d803bd6ab7139ad2fbfba3e9a6e39640b66db96e795df6c5e530f5075ff91b0ee0,
  0xbd11850d0dea5358ad018387ba7a62100756595f91674052466e3fa0cde8f91dbe594098d49bd21158d0fe13ece064710ceb54fe95e687821908db9672ddac3cd3b50c2db605011f5ba3e9f62e08708aa6e1ce90fc45d0b05ee667238d381afefe8ea314ca9cafac89a84a571ec35989d02e6f9cc7f040ea744cbcabb07c95df6bba7a088b,
  0x88344e828886baff4f47e339667229f974ef2f8e85708ae95640f38a954d0e29e1bd787335fd7b9346d237ce8a729c7f8157e9423505ae67013e6d474054b89caefc204a3dfcc6012f87fb6e4e94832c2303f2a6d3093d3c9659c3f55475f971ab3ac77e0e4104fd1732c7de8054bc60f397c223146b7c5705b9017b0508a141f1b3eea64d,
  0x4aec175587db0ec1d9be31f71c082e25c232e74c6438ed2cd1e8034cdeda972d3bd016bfb0fd2c441b086172bd3a00667268288bc7d2f24a5ff1be4d39b2bc22db204cfe14b835b641ea4356094f3f04850920e3fa0da8eb896e8d2641f16f7ef273cdef43eb0ad54bcb18b190d4e96dcbe04e7872d52c805cd706f4eda6e53394ca6ce261,
  0x312e5afeb32d0a16d7d8de255e1bef126b4b167de7110ffb82c949621848f025ac7157abb3f2e95c92acbc8937c980fac0c8eb9bb94c91973de9be14848c9ea8160cdbf1566b85bd3fb4a4c7377cc2691b6dde78624dbfe9d243b501cf9078e7b4138d4c5d436d4a3d24a723730bc7dd6620cd6374d4de6ab1fe4330d339cf2f21aae8e8f0,
  0x13f6132137366e4f4fc0b052dcddf0b0fdac41f9a117c60b58502b711ee0ec6e67faca1a3db507938e6cbc43bb19194298d55fc2ca47ad60b31f849eb18f07d73a6e737cfe8547bf4a2fddb9e640edfd52984e93f0df10b7d349859a1bc28a69b185f27cc680bf533214aade041a80f37cbef3478916eace9892f7b8ecf4e459be3b598392,
  0x47105363eec335586e641f88a53a26acda3ac7e1e9064c90ee43f7cf31e76d0fcc31703e3591bdf7d70dcaf1e33b1f5c83c85d8b0c62e5260b71ce3bd15f5f3ede9ea38d52d01999361a4de7b4e08fbde68136ad6f6fbc2a1d8ed97d66a4cb42198f220c574fb4de99edf23ca95e14048213fec3e23395eba227be58f48183408eb72c2183,
  0xb882e16ed2f3bad843c638c2c12d3ea64b4d3db0d67f78c6c9c90af9e34c896396ceb3ee3439ca150996fb0e50d7d6f4efd24353f15a2f219592c69867b526e524fb8a7a9e8bbf050cb6592f8c0c50f1e005dce24a8c3a295d4c4b1b6344db1b814d928ace8a0135f8575978ded1203141404d9802b66162ca064ba56d05df585388eee5ec,
  0x0f72833b72791a8971350ebd91672f6110fb5f2497f9b391b7b784d6650911f9a45376619e387df9dfa04a8f7698f9d3c84802e286688eecea24e205f0e8d6f2474044a94ae6dd7ecd1a0762eefc9cf4ddb5f59909acf7c2a4ff91ac87f0609210f827b7366c0f219ef53bfba948b8d7924f6df4e8274bc16d8643543153efbc3ad8fbbb1b,
  0xed09347dc97072a766e13425d67f41cfb958fe0f094130bb0aac1d2cdff441f2bc9268cd576c12901f3ddd93f4d4589e071a87022b36ed4d9dc89abe9bc46a71a2bb3a7a8b7fd66c53efecb19edd6a137ef1f6bb33e1754a5a2af4ff40ca9a6dedb757e4786bfada07de97ac2fcf348958d2952977522f6d839fd4fd0f2a8a89715141a9f6,
  0x1c08d3840471faff2086505a39bce003e29e75ca2da3ec54be510ac0a5b2b518d706da05122af66d1e0d57ed379aed2ab3a6cd9f8b68023b9386f1c27ffa5e1e7fdac5a930da150734e22bff16426bee57670bc2c7e91d4d2113f0495bf8d4ff8d0cc49921c0b0168794efc444dc709b2488af33a08d3e9aebbe8d2b24e662f78687898d98,
  0x7135416110dae31d55057cefc180eb1f4d2cc6b69c56c4b04fe10c7145a9045c8e8e91e8d55cef4468371a09cc4be22bafabe6ce5bdd829f553ae5be7f6f9c73d935e398d327b428b0e7b9afe533272737a24ed99c1997b794b7d36f6c3afe270c7854351edc39262643320bf1681a4a133bed66cdfec68412a298e14393738aa32c8f7a5f,
  0x37e94d601c46f09441c0edbff3079b11320e9f43e1c3445cbf32e7148ef3691d57a18e6a7bd8f67c6180446d29dfa981a21a25ba163b92c262de931bc3a8c14e26bf896350ebc011d075ebb7d1ffa7beab545ac7397be2ed48cdb054d0ce68df37b8211bda7a07b59525ffd578f1986e375f56f449e74282d4f4cb8e4190ca719c08866369,
  0xbaf9bab568b6f0fa7741d62301fd8e3f362d35e8a0c9f88ae115cbee8725610db1da2d9fe220d3a9b69729d406097f9a63b10908129b67406c6ce9541b895e7cfa1a32d1154ff496dfe2c73eb56806e00eebae516a96472fb0ac2a6342b4d9b2c458a0ab6ba56bd7aafded212836d7bb340ebe5a2e5992d6de48edec5362b894fa7de8e0eb,
  0x94ef659a1e58b8af0281403427c3e9cf13a1458519a77252d638c1a4dc3553d30021ea5ea051082316d5c9ad8aab07a19cab4798542cde3c138bda3176e77de14d03b4c53a04956d3ee9a35a67057da25e23d2141b8d90862476fd0ec3cae55dd3ac01a6e49315da47de62dceda7553af580359399ee6a879e6ca0799fcd1bff02e358606d,
  0x1995d4bba1d1ff89cee53d617973bd4a7a15118372ec4db2faa8dd8678b7610168ffe24ca9621b7e7ec95eadc53801985c9e2d3072ca35c4dce1ff2c2452ddd78ab06c141d849754a4e46a0ac9f249a8f4ffe0b54ecbec6f51ca13249459af2cbad6b8e1ea45cd75ae6c2fd24d216659518ce9ef5a8b563218fde0c3de335c2eaae9592da1,
  0x5e1d52e171758ce204ce3ed26a0d355666c160401e220c005beda37786e3d8b084c7c43561e02d72d710e3a7273ebe753c2180cdf4fff67d080820f6a441e55527abbd4abe30de7b5fcaba22c029fbfc94d1b98cceffc660e44b8dec11ef19efffb75e3c33280a323d153647d350ffcb7f6b28f94f448ab22438f78b67919d49d9fa4d96c6,
  0xc894cfb4723f89bdc01dff06ed863bcb7e6202ee7f405702c6035f3468ef831d2abd17fc2fb2634f3799402e6d6b67775835840e9ad115bfdfa5352f24cd8b4bb75d7e97d8bc3527d2c8892d818a262628832140264f509fe0a3222c2a1625fe84bd421cc03ed6e9be7176e08684013bfdf9b6228412116b112913c4374a989ae7677d310a,
  0x492d626da932c26950efe30f87612a65cf38bc7359f282e800d462be65af5281fdc7d2e0741cc96f5496fc1531143e68d13146dfdac553b65f445569960be5f005bbd7717ad2565e25ed8ba9529a9ee9d02d145b077caa48acf97c2d254ee11db06dd629408e3de54e386eacfe2fee53ab90f63b55515d4a6e63a9af28c20824ed6849ed45,
  0x125d0c6fff3ae4f61a8197cff9df575defc120fffe13a5e3f2c34e52b2df40a4788172a70692e7a300e22eca86a1725c1b5ac4f52c7ad635bf4d67ba23c52963ae5d5b824cb102810f160e1d2a47b7a39c64e1f36873a856b8413940d8019be110bf0f1e445cc46431929b4913bec8e78c224345677273fd36298a28ece4c67f7c7b11610f,
  0xf083bed05b48feae36c3e843b5e8ae8e535e699422ada6f98f16045881851d64a23a5293092f301af25c7bea1f4218f0b1cc4951240b8d3196107ec51cbb8544ec21669e37bf1f4579f4105a912c6678555652d12035f0fd28630ae07225360e15f03162260bc4407fac84aac09cf8dd4bddf07ac77b078660bc423aabe932e7f48b8fa5a6,
  0x264e03af6b05352928407493dc301553007d289e3bb524709fffe3dcff41e594cfd10865e56428cbc32d9a80dd159f7901b543828c57460484d6cec46314ed2c866b4704cd774ec31f3f1531716ab0b44824ffb951ecd52aa6f4145234771e0d11f2f9488736cb7e90eeabf250fc352ae457c19567aca4b60056f779d1ce224a1f341100bd,
  0x9b51e97d28c40a309b059cd327c784c49c478ef159dd6942641ceeb03e84da7a158dc82a294b270b6f5ad9810c7131f4ecfd394fe2890db00b055fca99e31b2eabc1d05b6a1149a5dd9fb58dd69a8b0ff3b7fd9b1c20bcb57ef8d786ac55bb4c3b9b54f3d9fafd612426d769aa616aacdd7bbf4251256bc49ad307d350919e11b21735c61c,
  0xd4eda0aae8ecc65ca79f82836c51239d5b9f4d0172f47357bb24a5970c3817710774b659fcdae19b1b0d18579c4d11f84d9306f2be2c336b071e1edc545ea895977077ea52c4ef0f793b9278987d147786e19e805529dcfcbe77b91bb1b910086dcdea3bb81bbc41f272ff3eb8953235492afbbcf1424b9bab2a9e91d622dce1df97e04b23,
  0x740daaf32442b3d94eddbdfdfc064da422f2a5a18e5b14b6644e4e59fdd744ecbfafc9894dd55ec20ebf8c8735c995851fd1ff37ca38e7d1305de92917b722cd476208dd9fa080ab72649a39da6ffbc47d50c6684e2a9e8cf90021a751f5d67265c76371dc148922da1c858eb0c8b20d0cdd89305d525ed80aa229916892f1cb7169fe2cb1,
  0xe13a929b9ea036669bbee2dee9c9ed227eed53766db5365e5bf9fb8f3399e3cac8141bcd5814fa277d473a2c0911effacd7aa6a83c8a86f0d308bd79eda07df6415d5cb8e8d91115f6f6fef8ebaff443c84ae35ec79b5b89dc49aa75731d143a128d007b365031688adc13fef2ab4061d79ee96e230f17d76a15c70fea4a96ef36aa304f94,
  0xb83aa123ecae05c20625d97fecb9062e5784e5cac1aacc9d45cf8b5c9264a5958b3acae591f80737b281cdd6fcd386bfdda384e7a536cbc487b761978e1f544e47e3388e31275e333df265f7329a1e2c79c20cea1d8d582d4012bd6a70d66a787e5076c246595c6d4737cefd69fd38001c67efb26c3c8a4ee05aaebfa1073c638197df9164,
  0xdea3270a0d8a4e255b2f089677f091e4b206f8a4561ae7ce96d0cc66bb78c15c8ad23cbc813df4a64eda76f039f431059c9b1f81a7e7f241c551e1a754ea76f8fce2116a98b51f6a1c7aa64e1d9967b31cfb14130c3ff4a7631e5c0db8e1da18c4865682aa5b9179e4efbab5cd0f4109b57f7301cb9e4fdc6aac2117f3395e8f29e4959f09]

/-- fsb/src/pi.bin, bytes 102144-119167 -/
def piRows6 : List Nat := [
  0x26e93344ec3f592db209dea101eae56cbc4813ad1ec89dba3dde565bb4c0cb9b44e61359631fad320d599e04eedfa19299760f44dcdacbc346bb2dca24496b927ca4e36ef8c0825a44154c38fe33e15d8e0caa667178490fdd2c1b7be1f4eac474c8040697447d105c1305c9010860b73a4ceab52ec868cc9983d683e4ab038a97b1acc7c9,
  0xf4db9ba46878bd200ea586a221b9ee7888c2c30d895e557f93c8ceb3b889a6b20a2fbefd75e53ca4abf1aa2ef8e1856158ed5185af5f0e798bd9f17ad50c770783e6097b9fa787662f6aa7bc84309eaa7121df56da82a0f6f3cfcd890e42abcf69fe45b763cf338aa1935e1957181dddef7a82d4e2be620cb9493d87e000a997c0c6a4bea9,
  0x63822a23b87600038f17174de4c6b3f74f521e389c9cd6977d74643cc15e9fd4fec41b9c8e6251317816db553b818ebc2fc70ce53f93d0dee96db4dc75bbb90160b416be66baf1ca2922d27b350327c2fb0f9fddeb5a0fdbf1ec642d722dca4f968476e7504734314aba4725432cfeab1a95bfbbe76d0f7f4fcb7ee4a014001ba43b8d9ac2,
  0xbb01fe79d2bd86942e9733e4f12326429f22df2b72099bbf8ec4bbec8629dbedc286063268102a5e4a0b2babfb5e6460fe5bdd4456ff71aec62b7206ae5e2f8168a45923c94a2f749526b47a12ace86e6d6dd644d19ca63af09a74773977645266010759b3c6f8654b46e49cfd4f76eae0bbd3b8940cc2395a1dbfd9333f23d843e4843a0a,
  0xe6470ff62accb9f8c4b4b73fdd5d4e093df13549e83dcfab56e09606b0f4fdd43d4fc6641a95ff6879e69e3e82daecbf2f90e8087143109b52843f87afc6be3b41227dce9dbc1707d4c140ab3a7a34fcb07903b762db8faad679aeaa05f88e49d1187509bc0bf16ceb32d8362de103504439ffe563fd64982984735f310af4d256b8ae1acf,
  0x6ac2a39078e545cd6ebc7958419d684e60805c8de7580d0591845c9a349d6f73f9f63803d0b591478f1bd1d980751d4f1e0568c45d43df035f7bc290831a0ad12a16789bc10cb322688f005c0a25be8d3ee0b11be787d009d2a3bea42dd0c28c88a91f3dc72c2603febda2fa071a7179c79358f7cef5968ec719379390a261df46004cee72,
  0x9ea4a3f067dfe57756e2e0bda38bafad7dae8b5be7ea888c9b4ebaa736a0483e42d7e2f3a1cd2ba42d401bb8a5ce95a236764e86cdfbfc1a2ec4e1467527e427443a2317d3c4ec63a089b4624d8b5cfc6c53da314e5c31309eb26cac8cd94a55eb4c708da66aede5c6ccbdef760ea63992ff40943ab9e0e7e8cbb655525da564b87bc493b5,
  0x716fffc3a0915112a14d978937dbb48371eddba35f0d150a99219f7f829663b3a76394c2d1a50c5ad655ed3bb86db7951b6bbd43e095ca9b7314201bcec21bcd2ecf7e5d8e2644c5fbd492a2f83186ef5eade6cac53bb506f6e526f0cb52c3bfcecef008e6f71c7be8bdd6a0bd73ce6dd10f7d96f5e6da7a8dc49da0aaddc8a24694bf31dc,
  0x2cebe1ba5d4210ab8f5dd11b7187ff7b73ebbbcee8823ec551bf610b6742dd870943d05aee7c4efdf88ef4da6af9a459ec69a9850406f44e3fccf255710311393dcbb6741c3b75f8445500127f2afd9cf85da484a2e49f03f919f5852c0980986dc1218f92f058b64ff578f5d1c722e90dab23e6cf14cde8b44cde1c7774819a60009f994b,
  0x30ec06eee3d8413daecedd62dfa8c4879617d080143ce05549e0ae9c49eaec2416cf9feb554cc791d09d10149193f3d9956eea9099e0b3e278348e3204fc9d10ee8aa580e1fb1cd231cf042c4da6c21d16d34f9821e425f479cab699e7640867859c46a870b1870dae6f3c1e73f9e89acb40497c288c5e11a4c8346bff971d06815456ca40,
  0xedf2340da809efa91daab9e35f064ff880f032da9ac4f4836d1a365b4615904f2342dac4bf8d0a9625115506a60d12419090308e979d5df2161f1cd791e66b0a7d24a6cd12506674e2b737dc7866d176343cd3b9d68aab900025b2a888f215267404e1c44a0ba641926a4998268ee35f0f20734e8cda96fe44cb5c4d5bbc0a2c9a9606c69f,
  0x4de531cdd877888b2a029034468079fb7d7dada7bb434eff39700d0a3bbdcd3acfc5bbcdb484ba2583e6f6b7e4300ed532931ad6d19b0a1aaab001ff0224762b538a308b352a839322c71329d378960f908beda81aa9427bffe85fc824dd4d37c7af8de3212febd678f4ab07adf75493070a04bddec467c463c59fdff66dad2a18d5de6df0,
  0x599a34fabe4a3a01defc16cc52f78555ffb140face7ac971ddc4529aa0ec3b041e05b36b32f205d3d4e7b25834727385f4043b9ee82fda7a003dcd2ce69642f40e8137682dc8874d13f2eba18c81b12da4bed5d42d3352ad5e5dd48e09470bf086a2db2c7ae9dac2eee070029dd305d0ee771644905e08df274ff9bd45882eff6ec91a983c,
  0x763717ae413a0ef89638e7438f0131abb967e5794f7caa18eba940ce94525d21899250fd6d4c97ddca1b59c8a865b7ff34f2658d0c3365966f6d2ac4ea700a937dd5197ed7abdbad6f934d96b6c0d44a403f75df4348347088c261f048e21ae2317ba52c6ddb88951663e59634be0b45cb39725c0ee5821e8ea5309bf2db9c58d2fa8e520f,
  0xe29e9d2152e86be52084374d29e44242b3e77cc0506b7160534f68ce5c16bc11e2467d9eee931c344ac6d3d968e07117f7b91589848b57e3910d673dc992ff31776b99d012dca8236baa46f4294708d85b562285f4eb9aa718b34d82d266ab74b44b3e0f94506ee0d7cfc92e4b4b20f50cd65a84e3e5c675e7d91d47f080b0790a1f8fa7dc,
  0x0b906b6ef114a2d222bedadd7601abb5b9839bf8d3eb7a2db267e903057476d8a6a4ec3a0d73c15b2b3943e651c7f806731f686fe27f0e9f7bec47fa3a9a77dbb4ff4c72f6758db64e60769649ac8a879328b6bd8d0adfa36a6b53af59df62562167682af467e99129c524452a5cad79ee24569a025d71ad2ebb899390348a213f87ccb8ef,
  0x6759154ada2fb976559401dbe8defe9244790290526be15c08156b10793551aebdf479b14eec89350ee3a1b4367ba7e59d8d926418b3e6514d59d51d91df14feb269cbd5b128214b51a9735b3f6490f70e47a1126f845fe01091af8514ed937647a92ff762b7f7c48a26bf837dfe355b6547e72ae72c4398e03faa82e02d239c78e8b42620,
  0x6d666362fafad0956d12ac257139c97c765fb8a6fdcf2f7ed30084effc03d0613b8e30db752abaa2aac1156acc41cbc33e3fd36d140604f8c54766a4cd995067e660fd371d1fb024a87146613b2bdf99d41cf52f3117ada75170cfde526b869e8d9964e13acf16a57a83d28114224362d87fbc05ee975af6919a95cd1c709aec34be70e3b4,
  0xcf04723bf73849a8cb499a163f160be98526f7b2c8631c5958dbb3301460085ac5b165d87461dafba4d6ac4e7f4b47fd8e76fa1fb8a48b25b0fbf3d67ee137f137be6470ab17cca6089170f2b8046f39b73317ded157c2e265bab0e570e8d8cbdb7b836c4d141a58938c92bffa0db466cd3ef29c5f6aea6ad99db150fe7653f256cfea6441,
  0xbfe16fa0d595df67dc0140d434599ffdce0d1ebe734899d83ee4bb304987b26d042b8bf28c00fc8a898f93848f9708657f90288032362c0161f85012c7eb9f66054d16fed95042bf8acde560c620a49ed12fc25c670e0902bea60217ee94e9fa3af2dfbb664434b80e86fe20920b588dcb5c4d6979871941616eb831c54322e5d1ede11171,
  0x6b9950ea909c4633f8fe908235d3edf4808d104b2827dbcdf01167f1f6a181ea421bda10f9d6ca081742856b7d0b4c2126d0dc665bef1f3669927f81cffc925fd28963410429d433e77977ba8bcc9c0d28345ef60e23c8f0a54fd557ee31636f95a0d54694e208a898ca58f45b431af56f2bb7aae28e8c9332aa0a6cc065aad30a86b49eb3,
  0x4f5e416161e4baa8927c71fc308963eae90505d3c2fe9f8d9b3054b44f07efad9233921cdd45dfe7fdc3c41aa89dc8d85144d32a02460d5e3a74eed1bc88757f07d18e92d6e6ba5c88b3bed70bdde7f95288a84b91215850f7b6af73943dbc19b499ddcc4b7743536dc29ddd901aaaa223f2e2fc024a569b1105d1787d828d8ff4e348d48a,
  0xd6973233b58aabce6b6a347e7700e37e4242e35be1b5fe29f034a6c9f7eb88d65e205eb6acc06dcadb6cf026a56e85af759871665bb5eb107825a96d5e65af724713040655e127a083231351d6e567404bcb1de42a0c52c724070b9fb1901effe82339dbd3b8f1d3f3d5f2f8eea94331f61804b8f63ed01bba66fa69e8cc5dd494b4d2027c,
  0x6bb0ee560e0fe56280ca40e6f114749dbf152ba4152e51b5b3f87ca37d86aa818ea9cb5d0b8b37013ce001bd6716c51a6d673a3e3502cbec8a3cef8cf4dd202eb25e592462dc3429f4638f96e207b219fc8338e779421d51d4ebf4e95fe21af38fcb28db2951cb9a7d134b79baee348a207cd79cf2063e62d394ba02638c7030629cdccb75,
  0x72b6d51925d599462550b39cbb4e60d704932ebbed1436b819e6a7f15ba7ecbe1ae12ee7ca53c18029c0a0f41665657539817a8b1e68b8d1c7e6d0a23dd20859f9947c8ac89fa7423de3f1c31c1302522efb9b143b726a45ae4ed9e55d387d982b2a3ef05326d1b931ffa435df5f5a128fe846e509ef767b2b1b4c53e071375cde3d087766,
  0x6dba129a354dd836e18a2c318066f26327bd1e3d83ec1c1870a6b11633ab1d0312746c4387e88984fcbdaf4877136a41a6516b89e2773d8187dd8a3ed31df1ff8fbc4f92b33c2da00c831044d331d3af1ccc414aa17df20bfdb70cba264d28c13e4f5f3772916059574c5f1450feba5dcacf7f9276d18447d24f71b5e82ce86c81351a8a3c,
  0x86e0aab70b6fdd4bc9d20d7b6d17933f59d6a553989e37d210557f8897c3911cc303eb27502c9cffaa8c6d8f7dd490e168cf1118c726cbd000f2ef1f3be42ccf12dfee5c5e6af12b40c48aa4d8b82d55574199daf63efa0ab98d04607848f31fae03f603edcc6c06e6adf920d9ade516bdda7acdd8739e134689bb1eccad12fbda2d198c03,
  0x92329947659368632721c86f9978a0eac67de878fa327c742d78f06cf4c4242c0518dc8a263324bcb56c1dc68480b68d4d11a52edc52a1b1318f153fc6aed55a00939f08172fba4d45cdbef375951a7e4da6d5582cff97bce639e5966c76e62a196d5a410c364b77389af40a00561dc00785db030135710f57ed338525709a27c83c907e06,
  0x494f4d5161ee334c749189a58177510474fbc6a7a5986d2a32d26da31116c97b3fc4f02988564a0300d7244f0098d1ec25550713a3a9394bb3de901968529c6f994e3065ff6b8d43589700357e8da1a6160233cbd3b099e7c81202a406d7ebc679a8970ed44b58d4ae6a4a3206ea2987fabef7364ce5741ca063806973433aa2f200541949,
  0x3c813ca556ed79971d0d4b9c294e509b472dfbffc2553b99a0139fc2f1f0a3bc9ffa690e4353b5c98af0f52291a76ba62d76bdfdb48a651a0d637a9992fa61ceda2b5d711cc60d881a763dc4a6ba4030c00ea51b5446f081847d6ebfe2175fdbadebb4a6a88400fde65e3a36400b8b440b49f68ed6ca181de65760d47212644a25640b1ba6,
  0x4fe51f79b9cdc9719a20d1bfd5f921e680f8a001fbca21c356f6b85da4fd7cb1db35d3412ed6b597d15b8c488b02237dbe310e95f86e168db1cd3a52a315a5d44845a3aaa01758d21de46b6bb522c175a0b07dc4866ea4e8dbc54983f4509c1429de7bbed7e236fc6f222fa83164d698a6a85507c6601ad8ba8ce1f8a4a6eda3eceb2f1c44,
  0x83cfb11537ae5640a9f2ccc3eef81f97ff490584d9e9d43e0ef4bea332403b6e30a20f7163411981ef674b682783e3509b1373453b720b6c28b93a8e4447be6a90b7dff342c6ee0bf4c82110fb1be354799bcef93bbb032d4ae665f1077e40cf76d86ab6ebb0baeffc8f96a245be8f357ed2ba3234e11f50bbe6406a166ea774f8711f8b3b,
  0x95f6ad026eaab2204d5e2cd48abd7e2607c7b587fa1a2e10c61a9a618b14611e80aa7079e8e482f518be2af1bfc19593d8569ee23c2ee38f353456fa8c63aae8133568e2f7ce28b197aa6bb106da80888168699ea6861edbd4c5337f6391cdc2beebdd27e4a16b5534668bedbae071f63baae7a8f73f9840be6868ccffa341b3a558b6ea5d,
  0xb4a2ba1928f2e9e559dbc78478ddb08769cff42b65d0e4167632e09bdd63413ea6c8cf7be57e6574cfccac9fd06c163816b28101c11e7d5c722d7602feb187ce6db1801729e1a1a39ad17a1abffdd3ee3bd8ceea8c2c4f512150093ff033f19caace6ee7ae08d57b2763316ffafa59f6c5aa91b0e1f54d18874ed78cf38e4b780a341ca353,
  0xe8c9acba4b8d8efc9a4261feefdfbb542ba01d009fad794b3830c00ecfbce8b8e80e84241176b30a79fb695cef9b2f6a5f5270b040376a547a72140fedebaafc1a5cb1753e09e3ec035b4df17b2963efa69f305744bde05c2c718af9806b028ed143bbfba2bf972cebf8c692212d09a35132664229f9d9c86004c05b9da27281341602be5e,
  0xcf1adfdc7c3133b5e1b106d9ec72192b69318a79c331902c6537e4036aff20467ec230da636cc1b2ec705748aaf12b26639918a6c6e969595be504091c8e7cd19f867586b73447223724c491478a25d450deb454904eea87e0e75750ae2eb92f3117f084ffc460c9f1abe150920c135104cf4e3c9b16bff2a4415cc62c6a2cc7af5d7becf7,
  0x673dc0a4c2e9480e0d364995c689d9597312e21fd157fc8fc2cb537b4a0cc0737f8295f5cb11a8609eb395bc65782019d211b44367a7cac214db7618b9d333a2195b7ee7e1e6059eca1c7dfb7e57654cf7bf1164f64d095fbd4d85cd753099322cb296d0bd4713b9b92474e8802f436cee986648bb1d209078518fcb86ad5d8baf6ef78ea4,
  0x3fa0f73b02f8810073c3d0495d6f05e88793eadf6e3b5fa96dd6feaa085055281e90ac04da86befe9a74619e8eac149e056b4da41b1f1de335ee45a540a97e44f123c29bcdf41870b57ab2d0765bce2c8c59596c9c0269b6b2462c0f54a84878607a3a351141121401afe06547392a9af96e6e726c144bdc7a05695ded758abcc435b118c1,
  0xc2b06c775a01bfd393c4f52f5c1e3aca2c356249a7092787910757e3a6df9ee46d0ad4cab7b4aef321a5da2b65f69dea62fed8ce7050a39840fadf0dc7dde47351ae9b87b4df2d77e3b8ce23afe1c3773b9acd23e06d0d3762e1af8a7e8dbb4aeb9d748120421b32685656eeae3ff7e7f4974d150cb42ed0651511ab247ea3e90252e9770f,
  0x6e0ad20f35e4d5ba194792fc9d81769e6a367b05af4b2e0da80c88976531a1b940734ce5f0dd221f0b9e0aa4317ae29e5d25830f81227f30938b75de1904d7e500ff349289f139b43271aacea3896c85e42da7c4104903e4fccd87d703de283496036fdf766d68870fe98d1e130ce027b0846d62ff3e8902c31c3228739c56220712183e56,
  0xb1209e18d5b6506386166cdf11d3e0e143cfdb4580ed2bc499bb239afa0fba3851d80bf743f6c415d0590ccd45a1968d97ee8ca53eb6cb7e4f2bb778ba0b67a451def89cc273b17fff9445283aaab6c516a3e4c054f704738da2611866802835c07202cf6170597520447b62e74623738863c54a0e38a957a87f2fac2eae7170f2b6352c14,
  0x8259f3f56ba1a863cd141806d6d81e6483e024c7b328137a3f37d5856b299ea566b68dd29c16d01b2b51c0f9fcf2dd73bc256b5742eea94b3bda04a8e1134fb85c523eb9d14340e7412d82992213f4ee0243ba7e4c35feaa38b1f9f584f41334e73a530572cd8437ca6b1f3384a2fe6ae08037b54fbac00e79cf3c9c9ac2655e5dd2fbc58c,
  0x59a10734036bac0ef1c66d17e7e627eccdf3a3ce088c808360c05fee9d47bd71ae6cec1c30938c833d6ab85b9507073a6468bb11ea624381809c895652f967a052df19606b35ae1d88cbfc0886a0ea6bed98b1c275535729e3333d3214d44555967cd63a44b8b9e2ffa174279fc390b9a2b906f72799f06a747d2a0ec90885583a7b233804,
  0xf5cbd66668ccd723bd4d638c69dc04a737cfb52e0b8188235922b536f9d5ae9c9c02be10242b9832aa62981eb8595c3f5121df2e7598f79682d9b2c047d7dcc8fafd19f5e53d4f4d910625110cd0ac2eb279b32b70e7936681c60b14f05917a288efbc536ff904f63aea096dd70bc61eeb22831084a53122d5818f37138accf4426482002b,
  0xd888a90db599ba382e8fbb3390c94fcb2eb3877bde40e5ec51b6198235c233eadd6c060013219c5bc917414edc5adf195060054ba4231b762a4724be9236af3e3b640a6063d64cf94d681b6febf21f283baf3203ba004ef18380ea6ddf1fe37691975a9030593c615f3ba707c803361fe2e1084fb7a7da1393b3ee0f84ff92c07d459d82b9,
  0x716666afb99e941def6b04b83305c5aae8ddd51fd17fa2e3e4cbf771ef185dc05659b817cf8144d54321633043c9dbaf90472b8a3f2ba2064b21d24497de9caa0475e9ff617118842dff805c1128d043651d471cd12ebee827b98abdda5cd5235a80bc5603c4e6ac3b87600542c6574dc761886ddf59d7dd59f208be3d8e4fc55d9f9908ce,
  0xd779d2ff073636ed8851fd7907483ecad0041019783b8f94bd12956b5cfc1f94a32bdcd4dcdb5caa9e9e3eebf3635fe5470673bba4099f7af9365077756026e3f0b2541b994a815a3a8be98936d58e141e7b73f789bd3ab2af531067fc529328125963cbaf669dc116ba05f609113d7162ab149fe1e78db66a18bb95e0fd5589fce08cd26c,
  0x7d46694081c14fd954e8f7803df284d3ff44fa7290d1fad66658fe3d00efc46415fb5fffa930dc31f3ffb6e3efdf577e51152ce774fbe0c3812b3d6fbc2c742bf53a100c94ec44761830921ab83efbf7b7b2fe9110a84136e19ffc72f3af4565b8999d207fe2809b7474fe415dd49a9771e4eaf656ec06b7686e60c6e4902321bd5e9ab5ba,
  0x1adaaf114ca4c50a017cb612eb88f1916147c4d7d5c44db27de304de27ea36a20cd32e502620e95437b898844f21d76283e1f70159f1bfe344b7933df18646ffbc7b9247f05a39d8c05f488b0fb0cb03ce265c5eb58839b3b1183a0da52fa26b3f1043b895545a49c7202b285b8aa768a85d09fee0b2d836dd6daed4ccd77d447f34128d70,
  0xbd6f8fda66b3199b1b98c1cac15bce376a6df60b6e07e1697a1aa325ada20047d63a150be05275e92156f6de4a1268617b84b090d1b9a6f740a0a287d139db3a6a76d310e27f06f6c00e0f857e90f218179e440b96878f84f98edd19ea432128fb978da1d4b64875add380c6f9e25b381416d15c3be6778253f5231aca589309ebb4695d5a,
  0x288dfbef23243b3102ca1ac101062f1a4bc116fb9d2005c47ee8a38dd39772bf090370a398fcd4fe60bf0751b7d544314ba56419d6d8fc2633ab00b6515a8370c95734db37b645cce03811536f11f6f304488269396c86645163ac8463c16550af9eb63c6bfe2911ed5da9029d147fce40be957e9cb3e0a5594c7937a561cf0930570958d1,
  0x4e51d6087cf51e21e2a668168ffcdf87dfdad1bb8ed446b6d256f30e06f50e0c310cf63568a3dc8b45a650f6e585f498325c089bcb50235ec5e5786b7abf1c71e4b2063e79f4e7fa5f131b6150ae98c18343909cbd62f2c1550527d95d0fc4439baa114c1141ec9ae613629b29ce382af9897a303cc1ef057cdfc80e7d59b086fdf0c6012f,
  0x8de2a8f49621902ba4456e9cd1aa34007f7c757cdba43cceacc01ade91b6ec9361675d1d9e8ae621ce9117f203a2f5ac67a4a8ddc2c8301de1b7002c97944d670b53174d2b7971ee9977c68a6d5d6106c314fd95a06225c0753799ab8f0f8f9fb2a5d64ed16f1f43fd77811c77060fda634dfb5ef7d50435929c930c989db62a90b86c663f,
  0x13c2852a95e4fb99ec6f696d4945dfb87a32b6b9dc434e49e65571f0f9a95685c1c2a10c88c89f2f869eb105b865df59ee2927b9d5b913b3eacc40737c2ec8e28179c683991fec3ddb1804f8782374f3453ff732d76ca17231dc6721b0e795b7b9ee7aa4629f0b28887acca021461b4636b38b755a45de109098baf18097fcf133836f17f5,
  0xdb129d71eedec1868c8956035300698a0ef62a260e61d0d5f5cf294710e710487bd1725424b4ec43a565ba65b25c0e80bb7d657b2c4fe12b5088fb9b1df4fa73ea9198dd9ee9d4b9fe7f7fa969974835cf22bd40bd5b4b28fea98100702d742288425ce072fe78465982ad53958cbb1dc3d48dee29a50722516870af677238271dc9bb2db9,
  0x2db4cc404e703a85ddf2d127e8db365ac3cf92b2fed0aca62668db08daa5b906bf334a3e67cf7a266183ca0104721888d5f6a814c2d358d25127b5584d67497800a264bfd2d4714081c8acd52fad9308580fbc29e16a5684e828c2786c50645d48f45fd9a338fb5b3162470e569e77fcc066022001340a74b4c7c1c01e7ad4e2cc0ef3665b,
  0x19feb3777e0518fd20061bbb90eb5a5ec8f63e4433e428f389c9d0fcac4fcb53bf5fcafe1444f67704838a8472aa45a2d132eadd35be57a565c067e6738bdf6966f57b1698636db98c991713bad1bf61cc4ae896db783560fd1fc9f454bcc21e89d66ed9b5f3c4cb245b72f877d5c0a954db27c304f209cc231bf20d15df58270985fe1081,
  0xbde792b3de49e7238eeef6524a66233ff9ca1348d80f2ac582e75ab388f573df646adce458c77023ceb52404a6a08893a86b335d6a80463dc8344ef1a57345567c64c95ff004477bb40ada7e200654d1620b6d1f627bf6f8763f15b6b8ddd550ab50f3566c25549fd85cd9f505370f83876c5cddf1d30aa644931e26ab17d58d2d0dfd410c,
  0xe3989150cbdb0e8551bbee867f3a494c2b0c6f7891d56812383f3e4710b4acc1b8d0b8cd5e8b4f1c8c698c78b18974868f93d32a8b833e4ecafd83589543d1be535878b3951006925089ee25095c754cb31d6b4114f566d8d2cee1efe83d59ecb6d8ea8e825509d34309302ac48a2c11b172df94d8d64148495d3566e1f08d95c58dcec6c1,
  0x82359acee295e6d32b7aaeb63335cb0dc62ae96ca068f36b943251636070fe53d70c9807b7be2553215c2fe0f4219c810b8aae3b238a682f2379739eb75241d19f1adc9e3d98ce321099b744ad49e61b31820f465b6bf4d7740d7b3bea5c22847b96c2abe39f1aa34fd52ac2124af895780f0cd45d6140a183eafaf92ee770c2a4d566df32,
  0x0cb573ae61dc4658ed0175c478d61c46339bf385fdd31b14cb4a43a1261841422aac7f73dd907fdaf8e44d0842df057778a63fcc4767c8d610af367600aa4a22b7aef2e9eeee30f095cab0f8bcc5839749bc4030af71fb363b83e6ffaff1dad3801b2d08f3c2afab5ca8c1002db75dba5a3ff30fdd519e9304a4cf02d51655d3c959c4118f,
  0xe8dd4f37a9b2ece7888512047e061396301c3e5c700c98b2061ce1e261f3ef447bc8b29816256acf4aff1d121f2fcf3d7bfd46a51b5d81b4928b322cc977136f377afb1f77a054d9e42897cf7901f27f37b5fa2a810801ecf1733e9ec9a5c6d52c0a076b252e3f871dd0d061fcd5afb6441481544bba3e86efc54597d1943a135c7c66126d,
  0xea94cba0156b0259c8618c9eb6db318b29e115847ec5d9fc72624a0fe82e1a1d08f51d4e341507d948ad655e2dc4479e31c27d5661da6f6829a8324174d66ab12d2552f6d5d99d53675d873db3b11bab3b8c9ffc6e3f5de7998f70190c1c1e9f3dfac928052e8e0589d97aae46dde30fb4a625940e94d5f4b22f5727721a50ead4ceaca4aa,
  0x2813750adff20d0675986909f4c17aaac2156a76a345b97bf60ca5de43797218e89db491f53465cf2c430a2fcc254ffebd3a95f9a69a544331ec79a2b39f74aadeb710676ca19426b4ee795f4186fd45aaace995fad8821c13ca1a4905165762bc65ca2bc036788d3f0e310c932269b6e38cfbebd7acb340783bbbc04ab52ed5dd63131ad8,
  0x92e822a4d6eaec0025fee2cdc4eb13922b080240f785c24f86eaccd9dd598b3b2b04fa341d3eef65ffcf54124ea1b6809f5cf972c8d56500b855f6aa7c92423d33fb855519060cd5859ebbd1c4a9206ac7b266a602c8818213fc44b0c092619bf66de8ebd96b58c021e05e9ec020a99fcb2449a1690a07195b1c7a8d34648df5a51494e991,
  0x96d43f45c87a5bae0f2fdf298893ba04ddcf7424abbcb314bd70e2a164284c330aac57a384983c8f477758ccfc41f6aa2fb74c36437b3792a808d94943d8381425b278e6a3f847048eb4b399074791dc37b14e0b9822be80c680b67a5dea89650b5856040bcfa6b7ab2d7e087288329bcdf5da82b40979b43082520645315bac5bb29c0de1,
  0xc7af52f81608a7e4534e3c956cd3c777abaee9729aee80b653192eabe3bf7736c1d5da6ad0afc7c76f6c0b5eea9e2b82bc887b5cd257b1de361183f0a9ffed22483eeee75c2d205f885fd68da83da3040deb8286c43fff6960d04d93b752ebe9a0855c193a9d60d2a56fccd9513719cba728f1d5a7c092961067e899f7d7e4fddd6c995771,
  0x0a1a57580fca3c9462bd694c6559a7186974aa42601a2a2311a769f7676eb3bc98b3049eb3c7e35d54cb16b57542c1b2e5b3044132bad9063eb79c1495dc86368e2e187caf441d5c2c9a729df237079abe3bacb65eba3a75351a2c5ee9d5987d93759f7a829dfed9de1c1e569e1925d4bb3b68314f02d433481237a67050854a87c87c6427,
  0x43530e5acf7a1729cfa0bab2b46039a62b7bfde8ee221e79af6ebb5c351a69c58448018f82c00f00205fdd1e31d577853e9b45d91daa642755f91c29dcd5fc55df30420a85fe7cf3ab0ebb61a21d4dc8af4085f973c370bae9a936d7ef3f2884073c9c604a894d4267deb6305f195f130a940b7c895491d1eb3f1b1ccebc16ad1783af47fe,
  0xe9dd012831ab211a9148fbd15842b34be18a8941fc10c7f02ab9363ea5c1edf811b29f0f649b8449ead56aa3900d12c2bfc9bc62d8fd1739b9babe78f33c41dc370ae58e9913bef59e2bc0e35e08cc668af9f147787842b191b02f8f88f3b63eadf0ea2e487633d01ec0c0b107fdd32d2b8d26d13cc734c9ecea95a3d8c22afd57ec18446a,
  0x3a402158f206b3f2f4b0f82d0b31715fe137cf7b0db2e774458c95bc905066ecaf7878de0d3103591f157e35f4cb4f12bea8fbdc9da091809ad479daaccd61410f613fdfe57cf5f2cd288736551576611bcc71e2490fd524604d3920e39910fe4a8ec19319643510307b7dae2d3149a284b94c8f70f066853f716351dc1b123af3d5a15ea6,
  0x4029083920edec58b4bbac6794546a93f5fa41d69a7aa2ad8c85a6f9447be81ded64cada531e1bb284a446d3b999abaa818027cc527f959084344f294408bab3cb4454fc0220de09e079394c836781c2bcd3622b85d2465e9230875ad1d1a525965589790ebb05f18703a64df915b307f5a55d2db928c90fe841daaac7ed33b2cfd48b5f99,
  0x59869ea8c6d8c8e720cdfdbf10e2a9259ba47aa7abac7b3008d0b62d18f06631b6582277a1848fdf3e5a323da8a0e1d2ee0bf1c047186243957b6f1796b5c293e52d67fc125231c8150f82f097a8a1db1f8ad5a9b3a3083714b116a71c4e958c7de2e29c9227ac4fcff271d20da30b10e389a3c719a33858a4b5659fd0d48f795edcdab868,
  0xd131200e109c13c506ea72f1542a6612ea493e952bce80e120c4d2e52dae3984714cf6ad5d76a0d9d1704198a413a7ffcaee802216d916c4cf39adb4a0310435f99408fc429704ad488f1f9ce617347d842803881f0fe9239ff7973addbd4b2779a7ebcb621d8ef4ac571e9a8865027eaa214d324738a41d1f119865a47783de1755b2217e,
  0xade83e6311c0e65cd266921d229d263005b5aea3384074d943975813549a86fdc2705f274e5c74b1b21faa2735d580fd031f922a6d5476a8b2827283c7430ce008a1013b53804af1d89078b3cc05ff77a3485464e6b315f5a4c01df812d47ffa884b1a202e039de976b3a433fce0971846c805b2bf40114fb28ebe22b2e8979cac67fb0a8e,
  0x3b54f14bceda5dacc6371bcc91230f5456f5178160dea3795921f2bc7743c3ea358b5ae06bf2ac12f0f34bbf6b6f2047a747b474bc75d8612de080d7b0a43b3a2492b5294245bca4b0d2ed04f413f9997e87863724b29a4c784f8e6b661926a875287d0340d718dafd74c67720bd5777a027353ef5f252f4cacd5fc03a58faac1f2f9bf690,
  0xbccba8f56597a85e45725ee011564db1b19ee842fb0100941565a78f40fd80e461988f6bea5945a64525c664fcde2d127e47b01d7e2ea9446ed99ef353766aa6418afde0f469ffe4675fa80ef7c3fc262c91a01b8be5f606b2b67f6fb0a770c222c0230da7757b7e2c28e84de0956a282fa4d5a218bbe197a8127dd0b8e0d6ed9a4cc9dbd3,
  0xf591cda469de40a7e908b5bc600707c0c278d3008dc643900edf776a151a02c5f6887b31f415635871209bcdeda099ecfb3338f3ddab86fa0c3de8085fe7bc808e1f06e74541e7cfd9571eedf094bcbb41db444fc2abd9b64eeae4f65c3c06b7e7b9096b4312188690da03721acb8b15725b33bb1a33f31cbb88321188040fbe91190df2a8,
  0x04eae64fc2a0b2f72b6e169a301ae76bd528a5da83c13d69da7abecf529e5b357563165c9f7abe62f6cfa3175d27dfac12b0d6196be296fd73baaf4cb9a3d375facc25eff67df93fd191d56ba65c09041a42400bd7c8030e4a96aaab0cae923d8df7deb67d2101dafdee3a1f33cba88367a92f46e7b2779c1abb549cb3ce8e21b9d7ff8404,
  0x29d4af2826d89b63775790a511efbb1588eb904f4a9362380627245ac9ce0dc7d7f8a23a959be49a78023aadbd2e62581524da2d29984a998520fdc3e1db7156c5f60db0111a1b027472f6dd6ce700e36d2f640bdc0f160f2c856c1cea2ec783a3e8d3b3457b703a0a9d00f17dbbbd541848170fd417776ac52b88e07b84b7ada3af5a5993,
  0x92dad0e52bcab90b888d74dbcb32320b5498e9922773db1fe06011b1707638bbdf326b37ba7807104fc6a8b74c31a85a33fe5fc63423be658afb4461f78a174ae3cc0ff93291e093caf321225f30590740e68085d374508b2d12c77ad31642fee1cbf4e82798b68977393734e73dc7cfbdf2e66d0ab9346afed0df9d3497adc7b1423ab308,
  0xfab72d88edff82df1213900140cb59a6809c365ffd21e534088571f7d86dd6bf764952a9f12126b4a774ed9f96808f4b9b64d7429ee4c35addfd4332f66a887196c4e45cf3a30d76b342989384bfc2165984682b9cd732609c9d9f47cf8aa4803dd125ccc790dfa514513c1b124a897f0b61493086c5583ae44fc5f6b5c95694a8faedeb0e,
  0xdc3752a501da38aec9967c75a6b8597c4c08bbe19f73a865f512be6ab564366889a23dcc6e5d1441d67409094e245760fe28b3c5a4e4d4eb8534fcd0ed3ea5ec1b426e0672c555bac1f27bb3f83a100820a8b3b90353fc20e132abb004c6760f73f5e09cac2cb906755ee92f5f353d3d3c98da8471b69590972567de57d96365e466193dc9,
  0xd1134cb286d4bf685f1d07245bd77d04d3d186f1cec8db52817ba87840f6f7a12839fcac2bbf8f3d4d1d9f7117885cfb7644d4e6b4425692d547c9bef7ed9ec1cccb8367655fa50665328b2b27947665cdd8bdfeefed8382f4d3c003dfa90db923323f27d472a6a1d4eafeef087ee2058e92d8719b3c066bed70d4ec37ba8f33d27990c7ff,
  0x14d9188f34a263d81b75e36939acbc66cf88de1ce7d0c9432d7b1c7f10acf805dca32a8f5f7bc50bfc9e91cf84c7998378ea3ae3909d7685fef617cffae9585138b29ddde806c2750c314564fcd3f904da0228cf10fc7af21f56004f019985d6e03888380fc27b453b21ee21e3f4574201c5a3a7b8fd1e79b3912a33478a3a72ce45aa312b,
  0x3e837b3f64db4aad180c4a1291e1806b7ecfadce02c16d585d102875c206b31d38dea1c75e6311a92a7e4da5283ed1dce1e57f32e68019a402f991f8238ed64c61c1d8c6ee033f980eeadd4ddc557c4f38480a799e1472d28e93ccd2c58d20beefd97666f7061fdf5ff73d071b1b04d78c818b4ee258eb9a71689effb1f8e50bf7498c07ed,
  0x31a609c89500afefa1b02b0439be0c9b7c9163b3c72bfc5bb1fcade85f1ff5e3ae3197f087b664cb9811d34d1036ec28ef1a30bc72d5d4481acd6946cbf937d7aec68e1a19a588f61dc381952f857fc2a57c836573339fab972b36ee9711e51e0c1590374dea3cea0eca2d34d290f35e33acb073d97f69b6a4356273cd105bbfb113dd2f85,
  0xa81a607cccab58474d375431ce8ae4f52962d87b58649e5a653714bd9eefc5e162f532f09f6abde2d83a8feeb6c51bb3f72f26673e22e38bdebec7af7c491012c794526d55621ff5d0ab8bc925456feb048846a55c7697a111436282e932d90761dbe1119810cc69399ecf042818031f43cc6d2277f2c98261d31066f383f0e236ffa7af9e,
  0xa3f95538a0a9911f86d87c298ccd1c2e44bca18e5de7ea7bf304b598d0c9e44ea8a8f9d149a28dd80077b529dd832fba63f3f545979585e92db24f8467f80f7f54a0a78f3bf52bb189b894056377e96798295da7664ec0f3e733f833ad789f7b7c98d4ec6b66bdbda9cd6da3feeccf7d83733ba012febee0e0334c4eff01403c1af9377708,
  0x81d5b3eb162fb5e0918a6fa7a13463d7a17b525610205210c07525def15055960ab769ffdde642c0c7432003b463f87fc95d1c8b7a280555da1d465504d7de564eee4b88181b21bfdbe5eef7b61c212782af76c9cb7bdd358f632cd16df9f85dab5dc8598ba9991c88e52b66715fe84e7de12cc24ac6febcfb0c8de748a4003fc4ae6d0210,
  0x430b7a1a28b7fa3fe0bf79ad8fa6a0a73a9cbd641ff44f2b1808c74fb88644fe2d7315a3ef58c394c20e3e0fcfefb856737d687eaf9725499cece1fb18d446bcd0aeca8282e9fe6fbf098d251993e81a8b9e358ee14843a009c26d1eaa8c7ce1574b6bc45d75f140afc72ec02ed4086863159deb9ead8a1fd72a2bd2571da83d2d7dbeb84b,
  0x082237d7a9b44b1cdfa599f3677b64ff27ac75598e0e1ec475f1dff89149cf6bf7872fac376d59161f3dcfccce23e4e060f9f1d39f05725151db30a362f3ed18038afef110c34f14e7370901b1eaec35bebf6cff910579407f5bea16a2afcd9bfdc7a020c609346f5dc310c2c53df4dbabf38b2ac7374377e295cc1c71ce2374eb613967cf,
  0xb94670da158907f04940a4c585b9dd88521b639d9f7d5b375dfb743371b544b6996f0f9fba2f13faff27a6238bd8b2aeaff71f55995d5b9d1392b95e2dc940b2518ed9417e8343651f816f6494152fe584f6f58a6885de909c9dfd66fc9f83765b2adf0521d1efa8c7aa363166df82c9530c4e449bef81afd3470223e52a06d759c2acf258,
  0x9e6406335f439f9ab2387128b6d2e5acaa7ae0f9bdfa07ed2c297b3cd8cb3f40cce803f09d8088624569a8023eb3755fa777b347bcfd3828d6f5bcf9616eaabc217f9427d04941634450a6d301b211c5d612613ddb9d7449f8b4c21b047a9af5198b620bc7391b82ab710118c43b19edb1683c53f5ff5b0c7aaedd8440846f847f44c2ade9,
  0x989203da5abd0f0c69efb6ab61a6e7bb0b9daea3406e55cb8980cdc1bc042eacc8e31759d80ef71d0c18d261787f96abdbd260a9bfec240bf4115f7a613f8e08d0aae47ef31be26b470d7c72ec73f285f2fa5c84af0576ec18ce0843e93a9ad0355cb669ef50bc5482c1c9d87bf91867077250355b000aa2e5998d9f5ae16d7380415bffd8,
  0xa1354c26762180c12d1ec69628f059d72544ac8df44b0b4c11ed6acb09f859d09cc21628ffe6892f6731e36b1614eff19822f758e39391dd4ba296d681a85b7b545508c696ee67443ce450bc145b7a9324722edb2617567b27167404c9f1fb4654d1c351ebeb6afbc57dc317251272518285fa3add13e4df42024c4496fae480cf483481da,
  0x3e3113c73d34d71133a11bd6db57db26b03edeab6a63bff50917a5389b5d7f88e452a6504bcadf13a9cc780e2b9520b430fb101ee8638a69aa1957145d7072d8b86a0380c0d77ca0bd9d1201f91f1cca4974c0912bf9fa023beb3bb105496090eadaae972be9e046c3c3a99e47464dc2fdc9a2f4fda221b66fcbe7a80c1ffec605cc04dac6,
  0xf3cb87fe1257934af5af395a7d4a2d23e390c1548c834f9086a4a4e57c6c6c340ad205c4d5390f80103310fcea5ff42948b3806ad5ea5ee8d39559d26f889702cbe374b2b91aeb7d95ca58706195d41b325f3f4357ed0ba16f958905b4e31929873a113b6714cc5c8959c5661d740dd380eef0cb981595dd5c3dc2ef6c8dc9b2d8c6373110,
  0xb0e2d6303ac7403b7a79153e2c81ceb5d229e55e7eecc363b6c68d0aa4bd9792d971ae3e748382aad99b3f9fd84d32cea605854719579feee77dcf90c728906986f5d4ba1c0ae0ff989294967509c78f70fd1f737c593adc7c54c15ea61a7bfbe478e3ae8add03669677a47bb9c8473aa8a77c8381c64383122724c1e882adce767ef65063,
  0xc0b17c1e484506751cd2beb982e4076d7c2291b9fc58fccbfc7619c3df92ff1a99c1ad520fee4bfb93473ea3a0471e74ba43e238e39ab27fed12967adfaf7ef67f07ae6e6150d62b0884533230d9d213466c40ed1db5b4496634f6a0c11306a90debf0b437f9310f359d00c9f178f9434c989b5364c6e29759e6449f0bdca271e3cfd8b8ea,
  0x6e0674755e0f18652a9a4f6e1484aa7f970752a2099665e2d90155ced50e1a2252e04a5499998112e16878572420eee53310ac8636db72d4c019377474a80ea758937feb73e41692edc43bd1d5f77ebfcd8e7ce841fa1a2e47b5938dd84841388238afc8d645efedf77a378d30a36cb7c8dd174566475ef0815a8583377ba6c85e92837db3,
  0xb807004e53db81e8e683587092b186b13fa180a682160ba7c0eb9e8d26a58d171b30a96ad774bc99df38af5efa0c66995fb4b70f26f8881e4f2e60e21a609a24c35c64e8a9789603342793ea35391c66ac57fb9417e34ee4c64d495dbf09bab83ccec2c56bb4fdbd91dd46d2045db85ba06e8ed42b799d639708cb472103064a030aa5013a,
  0xba5a1158394160bd4cb0b69de49a531369a50f6c9faf1316455ff67135e9c8d343fc6c12377b81cf67ca842e901c50b6db90b571a1c8526e93ec870c2072f49db772df9092109a1bde4eb7b67a003ef490bfff4ee2ff8c3e7a350f10b9ce73c7d3d41c18eca9b938ff283fd3a55342d2df12e8bc102093ac8058007b4faa4cc7e0a63d4e0f,
  0xb4ff2d89e39fb492a9d83f074fb967fddf1460aa8ff41a00cd48efdc3e91a71b053b57e87d135e53d5f5f913abd353a9f6c26683fa02473f62fe360f000e20233ecee303c2ab2d7c9e6087d55f1d2214ca74e52dbb9cc023877dc3b38a7318335d25083d7aaf82aec4de79536602877ca8a70b380eed2cee2c5b37564bfc8c1a8b0657c8c4,
  0x959641d59a8d58bb7e504ee32cb666e91d0ae2ab1a2541c1e3dd88fbd1427075af9594f7dec5938ada1b957530847982d6521079f49a85b3d500984f0993e2b75330a858fabedd143e31adc254267b058974aae60d73ae5d748e1a7eb4d80cd5b1ca04f88c5f720a2c66955b202e85edb86837728d28dfab4480a2b58611c1b76a52f50076,
  0x9104c9faff9d5ef65946c2462bb2da1574069c197945e43ba6364220a2aa11c99688ccebdfd28a3f4ca483037ade7d72ef939c48eafdcd7fe4e730f1797937d7c27078a88652ff99bdab74cfa43514d4eff4dbd51b6ba038555344ff337ccc1b13f0dc16fb669ec485eb9cfc9db8a606abd24be93ebe2e04c7336703db8b1c774b72eeaf73,
  0x16321a834a376b9b98f3c81ab901912dee2b830c91d8d9638fc771e974e107fbe1f627f458cc1e5b94212c69721f69c50998ed74ee145e0f17e8ef439d7b89673157e09060f0d2dbdc5b49844c2bf0d7863f098fa49a08e09e6a504d1b41e3dc415396778648a7a89ff4625b52ef7e34a3bbf23aaae73a48e83333a2b3c5e0c0401559a09e,
  0xcb17775160844a939de7ad020cfa37e445789f4b0ace2a9fe2c061e8c3fd8d9249f9566c2f680a19c2257f1bc1357255caf01b9b368753f79f5cd20b9338046b9919e37e43fbb1aa49a35190877185cebefce37c6679e94eacd84e2bdf9f417e15524d20b3de9a0d435727d9328b2d8f67147c0ced087e110aad0c7767cc6c76347a2fa613,
  0xdaabab6fc85dfdf4532504c0e6829e5c13f84367690f5f2d34e859a5ce5ee9e7a66a05b3615dd5b242d99182dc8d0599d9f0b28fb874a0e7ee27928e011207d45681d188d4480f9debe68e1e2135cb676ab5a5dcab31c5b1234b104f67694460e2dee84625840b556c4e708355a04193a1485e6091e2d80778d77fd087321964ed1709af3c,
  0x938baac46ea250857bf8a16c9334078f9350f343e83c8c33108df341f507b8a8ea1027316ce8fc1d404396f83a64206465aa5c63bd85722a7069080ff4fce07af69b332bc442f474e4105f88a37b12035bb455af6ddfddd08df0d9a3bfe314e06e4b56c2f90f4632d824f7cacebdb918a3102e8ab0e96ec414f3b14940ac70b43d319a0497,
  0xff02916e085359eb9f1eb5522169aa0311c6f4407c96da5841ecf4a904110e870dcc6de19dcd7940af8af44c04da849a09208ee08e9a722253b7924423af81a2ad3aad5a95c3cbfc231255bf5662df01a6e4d40f3a80b6e740dfc00624e447bbaf2833e45f4c3c1a217d4a41cf28ff2dc57474eb32c275e9366bd6ca4570077de72149d8c2,
  0x5a17180bb3959064152af423d4568057e2b8dfd227713f268a5a9767da9d9965758132d159208194908b12841ffa57242f8ac2569fd63d6fdfe5ee449276e1673d0e1b8e996d67b30fc6b27a8b5f407dd778fe801cbc575024a32ad39573fcdb80d6fc38d8fb4562dcf2380d42a3647b1345d57afd614364fca6dc8fcc3768ac88228f0551,
  0xc26fc444443ecbaa034bd7bddab844310b45569b018e1d07b5a51cb9981870c80aab79aa78ffd3f190b6366f159b6b231d2fe6ea70aba3f658f0f0db47425e9e82aeec88165ccc1ccdae945ba3c5daf801197f8196b88b6af85f94e48fdcc5fd744744fde77f6f8813ca2fcc031cfdcb848029d23789717b50cbee2665ac51f034099fe8d4,
  0x639de262da01406fecacc29d8ed3a62d1d7a7a43b9fbda3d0fdbeccba8acac8db70a3ff9ba4c770db08b9a5e91854788103ced3a0b2d06c9dc04c367879eda7e04e61baea78030e638722a440d16eeeef6d6b7831058ea7f29f6ba6088f32a54ae3acf354866f8c60787f0b82834a74f8c94dc6402dfffb9a15670558b0bc3920ae9444996,
  0xa8688640b46013e06772d3a1abc0900faf0ad61e35a89081498acc922ceff1fa451b51a551c3804c3817ae0db8db5c9fdc35850e273c03eb7a9ef0c3d6cc677f35bd9a9b93e9adcdb9dee5386d8c242e890ed7ead8601e2f85f8d14c2f0181c17f12a619417814488805d79c38c90c9fd920f919a70a776750dcc6a0aee7a3c34b0a99a509,
  0x153b554d147cc9cce77c36f9f595481506ef11b9fb9c0536caae339795e6d927223f119dc4ac69fd7ac78ecf10070f72e4028f1cadf61bf24b14e44c10ea6899b64128734975152db68e6b23ba551c7e0d85da26e5546e1a0c165743be38eea4de9cc6ee409c50df3e0227e6cfa33bbdefdbd6ca999f921a29a32b774f41f19fcdf46f9f31,
  0x7801c90102a76acf8aa59398fa67acd7e89a9f98f927cc4ba9002c7a16afc1cdeedeeb319b8296d7acc3cbd32658018929ef0cd5f32c88f54066714aa3c0fd4219f30aa771e85612443e49d4f3a0246a36ac3704c2fc9de9c74d1a4ecbc1a5e2b96979fb160a04234ab2334404e9f3a4c8ac0bc8e752066b616a52b4eb3102e0cdd77a938b,
  0x1c93c5e3e96d6c00ad31071c671f6da8a90f9393f2d0e720c9a8de16eaa7edd57228969613617838c771faa27e7e7f1c0d363381bdf9f5e669eb39eb06a38ba48e585308f57951feed34b176f6482c9a0e001b7b5862db486b24fefa08a2c7abe7f58eeff4f2b6adcc2f1f2c453d3681b67a4cc171f60ee9d8750bf6f5b7f506cd75387a41,
  0x51e94a9f4e3c8e476f8046b04ac21b0cf74347d14e345cf62affda2ed047af94906a49fc53446268f1dc46b75e29e695a8c23d5ba7685c886553e34b73bb4025706d6002421254ffead4a50ba5687c137feab774c661bb03684557d2f159eacbd2bcb55efd8e0ba79fa909c5002bd937f368d286f33e2728d2e33050eade7fe76338cda0e9,
  0x05123ba354bba5a6368f809d9083991139e68ed2e8b5f10272978c1c6043867ab59826f0d4ae4496056291ac71dd7506b749ad74ad284085343ae8ea3443a3e6385cfb08ed82cc2890cc75bde17bddffa95e184a16602ec7973873b22befa15d937cee283ba401ecb31e45511de9afbba41f4ce1a2a79e6ee4cfbca61b95582c1c6841a794,
  0xe6363700188195a65483a55a7fa51105ef0dfe2d5ed3c3d5170fcd32d2a9947eb68f6930bf7539e4faf6d383b323ccbdbf9778127f1c94753a44cedd519e31e5ed8b6eb734a3104e7e9246ae4d119ab31593e7e64d354c57aa0f0eb433baa473f3f33cbfd439752e0b0b899e27bbcec5ab07ab6f73c9182996af9bf9d3486de3b6762d4b13,
  0xd3dbc3752dec65b7b80d4322c7d83a5a01f79eaa3ac8bfc186626a20c4df17442d658bba44bb75c7407b1dc0ad24b91197b6a480af4819c46f4ee72351c23e0046d756db81ac435c7c731b03d1e21fe07560f26d862790de8a48e1043f2b2aba4d4e0320c2f4fc586e4e8906a6086ffd1dfed0d08dfd66e898987f9eae1104a196496c6091,
  0x4b49ca6303f9f28337207959151728712e0bc9bb55258d46f8544db41ff58c7a77ea664d9955ee4b68c7047fc4e680ba47c938330251f73d5210efacb3ba687b9888dff5d9f5dad0c31568163bb9b61a758185be60e918cd60d350c86d5dfd9b54f7655270845be5117c4d9d3d03478f27f10dd4c27be9d71422f6e4d28c8177e2c5ac7cd4,
  0xb6e5cdb201715eeed82e5189e3a0f43d021e0f7b17362d8ad956ed21f3fcd6795e8e6b14e714f5ff77c22fbc91d265d4197b4456e3b909efb87d9f72f8e8b26c43aa905efc95913f4a0044eee1714a111f3750e60dceea21de6b3c2843b36a1dc2bca8133a4d570df1c47c0c8298146bd0f022aea6f7c83b30d9fc5e903581e48419e9a27c,
  0xaafa4409fd5e5a7387d12f73f660b7588b67314726dcc4cfeff89dcedf7e83dc76713a21880f4738f50f5a65fe71f0f959d806386b93cb9b4833f4e91b4a955ab4739f2a4419dac229f02648a71ba357da471ecb0e88801baa6155125cb738c257140b2996590d57acf909ea855bb1913f9099993c79dc27fb5da06d875bd01e4c9a686b5f,
  0x647d19933433f6e0c4415b460651d20acb33be2d03bb7cdbfc3b7df8fc3bc253cab610b346c87826a87449405f6b8b41eea79fab0e588c564503bbe85115e37d922ac04bc6d1f8f4f1c4d10ba0f8164d0bf86a153605acfb38f851113177485cecfeed6f4fb0803689b4ddce8c8395607e091c69aee86295930fe484329aee72c21b85188d,
  0xfa95b2c6f54c5b81603a5216de000e2640cdee5a4ccd301628f7f84233c2e5bfd3e01caabb019865f98ba8b3123901b5987443e80fa6ba71acffda020a7a0ec7cb3b54b7c6899599ecf6b6aac26cc72424fc8be205bd7b8ed69870fb199fb14e244215014930036120405a841d10f66b12167e79453a89292ec986d78a381b2b3a09843a37,
  0x9d8fbf565aece57cffcaa0d21088c4c3b2498711b522c347e3bc16b148632f80b41e5c9485aaf8f68118de4d3f946ccc050acba62afa460492fddedaedc56c768ffcc0761d3ad9c165910dfe6e9b6f6040afc7490a7f6daab9e040aece010a6b808d76286e22d1014686504cdb1bda49bcaf2e74cf35fa40081293201de87ff6530f838f9e]

/-- fsb/src/pi.bin, bytes 119168-136191 -/
def piRows7 : List Nat := [
  0x933554bb3c902788b8ae85b9e290854deabfba08a49cf84c67fbbfa47242c613dac27023a4aef4f276775ac2cc09b7d341a96f22e42f17d861d2f90360539b11161c053d5ca2032e0f8b850abef1fb62f0b05d14f03d02077520859401b5068063f5b46ea0475529c24b5b72b5244b545263e7c1afca2dcc05442bf5fb2a618e3fae25a310,
  0xec0a7e22fcb627e95e56704bbe214d1297322986692002a48204548ab257a696b26dd6bb6486adf40ec3c7a5cbaa22c61bca3c1eeccaa4e879ead9ad62f4ed3bb62acc1fb14a06663ba78365932184a97488d32ecafabc92f1a5c653a5d2f4c3600f02b07a6043c09479a257217edb727af652a8e0154f8bd28c79c50bc9e04548e28f25da,
  0xbad779bfa320b5f3d21cf7e003a640c1acfa302aaeeda5aa2c67da9857000d5a6470f08a98316cdb5be28fc9e2a7dab3fd98d19794ca0ca3477e21c81faa66e2c203cdf16e548197d0fac8b001ab67f57f3efe5d5b8a374f10210e89ce2259a003a47aefe9889f07165d6a35c9f6cd172857b61877b5263f63bde7c35bcf8ee8d707f38bcd,
  0x8aea93a07a699806e8affca973e9ea5d4a7dc3c67211ecd2701a6e31cb01dc4e758832f6b74bb9b992a544800fad3e215f6fc3dc82dd82047d5ddca3f6f2c92b6a5cd77c9e9a55d346932bb38d14da7a6142eae0630dd6249baeec6348f9c7f8887aa6b893e2845afc1598df59fe46165839fbff178fd53d5b71ce90aa3cd49e9d1cb93acb,
  0xacffeabd962e0160d06ac112b8fbde098b394143345e41ed13fa88aa0e9ffff4a273516934446a015e562807fba3fb1b69e84519f55641746645752ba79acbf4fad8b5ecb0e284d49e28a77f53bc141ac82065413adf18cbf3761d938a6dd22bae36a82909beaaa7a40772c6cb947571e71be96a0a134ffad3e595831e2f929bdd165c07cf,
  0xb81a03ecb8e8305876d93a74914adc263eb9eb64e2e7c09c0ebe6ac9ad3b47f96e741d33e4b05908928fe79f88d378d286a0d9e1687514106d110f07c7524abf276c3e0f271663b29b2ccd8303ae0dc188608c75aab273af832cc74f2031a59e36a2d9115b4f223695c79bd5f06cb0862f4adfa49baa00133c5db27d493c8ee9d4e3b1e72c,
  0xe741c3826ebcbf6c74f28404a770c38a641ad3e6b705c1edfef56267e710bba4b5b3d16947e42795ea9ab1637b41ffee0f3859e220a188a6356d2f43748272c471f02708ccad64293c54a6381e4ba234721ddd8da991985d2e43a5e9b1c392d51bec669fc254a35771e1cf0baf575448c9eba733a4f490ebabd640d6046e9cde7e6c11248c,
  0xa46e6b291519f267067cfcc07d5d8356e66926cbda0c72851f64b86563ab17607fa81d1d4722012669cef0bec7c3078192309f4b73ad28e257103b754dbc6782640ea1fdb6edcf82f070d71fccf0b2598655d4b2e529ffcbfb11575a1555db640ca1bdd5f8a07146dd72c51d1c97688cc847b0a9713c21dbdc9e99f2b3822bd53cecdec894,
  0xfa20d5cc6738a940e03151225596fc23450e1cd944e23cef5aa4b3f4ce68a0fa9caff4219eb4be844e957bb2727d89aa9f7c116a58fd068365e5540f13eb0b549b08a315cd22f5fedef9863010a1c476ebd7816b54d07f8c8f4eb15c2cc972f994d3c2a24d76d417fc3a437ca8669b6e6500f34b173f49399d3e43567355bed59c13718521,
  0x02179697b4a196c0bf99b575d602365722ac87b38548ada45a4411c6f5c2ff3ebc1173f6a2ac94178fdaf5988ac743cb0eecfcc621d9bbbd09799cde026ffe86f0fe1ccf40284d206bef8a64582cd647863f62110fda557dd6310060eb57d344c42126c31cdf44fd51eac9d7fff8cc3e6731c38968264626906757111a2ade4458de18dd95,
  0x4c0559d7ee5651f6f82224299488a342eda2fc681c83c9aaa3051205b402e33827192069524707712fd6b71b2986dd77bd4e4ee17c5bceedfc490e6c16c26c4b7301f7beee497ad7b783d85c4300a00cb0b2dc92d61a3f336d400c566bd17f0d9dcb969833dbf7c744e30733c9ba034eff1a10620a9c8ded9e39cc09a7912905899d45e614,
  0xd8673c1abe4702df694cf02111e7d6938f14acee7e1d8a16988264a7cdeb9d0600ac5f46e8d896553f66434dbacdf4d3ff9d313009b45208beabc6857f7730d9bb04963b38fe80337ad9fdd865490f9812411ec2ba2dd09ed6cbe4cfa6ccb52d7d2bdbce8a42a4e6a6f3518fd86feafb8b92a1680fe1ec27b8af0090593c40147808bc262e,
  0x58add713e8944ac0a584f2307b2044ede6c324a775f39b6ebd55f4ab5c2bc9b9e0b4ce97c0da99fbd1114c5a493d3feaa95f91acd78d986a0c2cccdb1c9a947f0a59132e6473bfb5a9d5b505e84d2d5718251bc79b8108ce3c30e3d0ae2655b609efc6335e07cc42fe2c2335a01e70b557c84a0487a788ba9c0c85eed51988327e7f668c42,
  0x159434ec7a2c994aa3363a9113aceb91ec515b273148023498d9426a0f1f309b532cf926e776b7278985607de59dd386bb63497fbd35fa5c0752f2933677e3b8c1fa935b5eb69e7a2666508910e86e7b2398533b916563cccb8af5f57c4b82e932e31956538195514178324c9714e620459dd2ded5d80f6ef4d237b7fa30343165a2ba1354,
  0xa415587668a6302fbfd88aca4b3a9a13f7fc217d6677d8594aa25eaa98fea15782693ca14a0f24d538fe85d45f7db77302500e73ebb76165ab747821e6e44f820f6bef2ab511caa26ff9e8d08b284ca534cde1115b10f02056fe65b447ede3d7829c73ffe328d5be2e41792357e6f6c11b195cb5aab5d2f7c0e8e96b832d51fd7981bf922d,
  0x2d993fbda377e8599ce8a3ec6036827ff56e6d68bc76d66bc65df2b748422ca8597bf3f15cea702e0baae3974a56b7448f7a28e3a54b97fe81def2bff5bfc9c83ef7127d5d598d74f43b71ad84de24969415578b8f8c6f2046fd97e88b692b691e9dcde7eb123711563855438dde49cc24c6d32dca2226d56ed6ca5ccd0c15cb97a95820dd,
  0xafcc92a6f8f60f65f032f1bb553b8ddd6dd75d34040d4db1bf4b6369b59304246247ea63e378d361d1013d6b72e326d365d4cd644e2f71aae0239f28eca6559336b6944b0de336f5bd3eb3e2f5f322cd7dd27642e98058cc57c879a2fb5b2339e8ce1876a10b488961df95c60d040d2560fd902269c4ae02d51c64cfe432d75eb19302c45d,
  0xe86138bfe5a34701b23ae7f02832364920a1056115d5a6cf434940ac06c6e770e2d876eed0b9bfa9f9e29123cd9c16a1174bc9aba05d10fba3750d9ed7683e4854405fa7cbd6cebd13990211ece4a0890367b0e5379941d308eceb5cf7d27fcf7ebe3ec1fefd2fc8da9c3b313c03e9761e723ffdf31b2cac00a9c1e6e4fb1d748441488f5f,
  0x335faf20a89b51a266a4f29e7213d5dad9f464a92d7fb2e5814c9a5c47145f7426c2a7c09008b77a8fca01f4a9ce2b6c600b186c150947db54ddf1dfd8435153e8080e56bad794bf6b508b24ffe02ebf73c4b8e3ebcc9b0afa7df759edd87e0a4e8b26ad16f95eb8ff7528b8e3dcff8e2ba737bf4e38b52a7189af479e7672400fece20aeb,
  0x5ec5c28d493acc8ea1ef169802e7de06b04d5891999ef97335aebf775c080e581d47dff1c66f5dd4440e171add174054a7db7c8d0ffdec3332fa950bef252f385cdc9f60ab91b75ae824d00af303755b6145a578362c82637c7dc9294ead1d59d77ecb773520363b6915549dc728232b8b10c547be6070476cba61cc50de21ea0930d9776b,
  0xa08929c6bcdb3f20830008553a3363ebe5f6b05eefcd16992ed0dd210283cfc3b38296909cc76378ed2af1349628ad31dc28becd5fdc52d2be2bf5bd252d006d0cc7fd175e93f7a1e46c4378e70695f1650ff9b320153402c1e010e16aec5868a82bfeef6de7f7cff7699880f53792908c5bba589800717584d32335b4084417d944daff34,
  0x55b28993f0f8af2492437be1f279e4ef8ec0867cbf77d6773e9d8dd1ab2db5b282eca19a8e90b71919e4f8d513ff641809986466acde81aa5eea605cf0b281673952eb495f1517c08dcc5f7161156198781c764711957cb96792918a51658e58d2aebc8f835c13006ee0c531cf25b3bc7de5ecd6ef657f9a7038cc084e92ee7888b78caf6c,
  0x2fb7cead20971d0af9e40f1302de8b690fb6784e2a91d06b6b0b69c7ee92306e8401b3d88a85e531eda4bf26a0606622d96d8c904cc2c09c34b0e6008c204fa204d4b3c3b14c80aef806240a94d3b82e2c9749956e6ed7e123924c67eb6e6afa1907a1e7ceb64fda7370b0bf2f036896a50813c4c3a10db4872e6786cd23050bc232aeb2c3,
  0x286b5204fea32d88d62acd3e4a8533fa62d74c6823fc62de2ba29a96ddc75a03e6485672c416515c5fa4a8401febb0f8a74e8828a9c52999ce8d0ebed5db2ee4f931e9941e14b9d328a3c47580439abfdcb45574cfeed924a224b46decf4c7c981f10c8cfbe0b79fd824b1d6b1bb85b3d8075b0a083fe819bacdcdfc784a393177efea2626,
  0xa18cb966ac3939417eb34622474cb5a2696e44061d66fbd7e0eb1e2bcdf6f8a7f18627bd8337fd1c2370ecda073430ce914a42970b1d572b8f3792cf4b9ebbaa1a0b19c47dc4f1250d6ac5a735594ac1a96786386a5a1ddb894785ca3810a4f9a8f0f65c1807c894664a4e21592d9bb1a6db7b1ae3f7e6bd0ee01235d9317ff4b569d90144,
  0x2d8c47a9ece0044ca14c34d12b411ba26b2b28776f9aee4e351982b27c3905119eb2f2b2b10a61c77ca2d0a2f2dcba200e453bb3ae7c28938904c9f39e9051b427ce8d1ca93bc3b79c6ea48f7669fc279567819e7fc8546961c9be210b0bcc053dff0c7a65511925e43b63a3352e83940663f28ed304722de7689ea215c416b2991efdfdfa,
  0x6ae9d9e6502adc4c01a8f6acb42632b868f91b000aed7a955d3762c25a73641a3c9ec86ef761c942f586f6c82921c02e8b9b9940fec04118ab9f7449c63928b74eadd0b5a4bb5b1b133f0e0916e54a9bb79636bb8a69ef8aca7c2e2474cb91a805c51f6e1703dea9ce07ef7a7446e318ab2910170b73234e4c507d5d37101b2b1ba74d2b26,
  0x089ebef79f0e474ce8107f24f81808d4f64d3de7ceed31fc55ef25e254c88c164c95b297983a537ca5ee2ec7e117e2f0c8fca367dcbc94d871e5ee18c31d747c75ab1b08a18acb14db94600772c6a2fbf0f555c667403dd5b830504281bbc599953d5f2af0dc58d43731ed1c34013af860b3463299e3d57c0890cff0ca3b9d9d185888733f,
  0x1e442c287f74b6ef8b3967313866362693d77618800ca03f946a9e3aec1d1a1a614930e39d737b052ad5fa6fa9937eb57a69e88dadc40a7f9006a90cac584375868b4d79604fedc00b93db23d81500f325af7f02deb74c17aa0dd11b9b4c4fe911944dfaafc7381cc8e531eaae36e7816ac398e3174c95a23c8c8a42a80961f2d35fa9be68,
  0x0a87b67420ade12f51531d9226ac9240ea060b57f23635bec0bd1bf700f6146157a3c1aacb5871e965900e8b259bd0e6dbe8ff05d6247a34c8dade5b6598b7be223b67b0b93cd228ea4794f19f50a34a37ab51093df35514eade3aaaa01ab21d322d7a1cbf69ff215575dc1ff41d3d54741a0537c41a659a7649727da1b0bef9953cb7f5a9,
  0x24c66db4eeb9d65b04c526f344e868978b16763226a6b33382b6626eb35e8ac9fd763c99e65ad1608b7d84b4c507d6b3947efd628cd9ac22499c9e096ec21f1750eb032b4eb87b893546b6b920a9e527a26177f44fb2eb71ea47e2c133947b2cc5f7a102e67eb63696d8284129ed194c145021225a72a2ec21b476f3ee8bd9348bb8703059,
  0x97601a12edd6aaa028c5f4f7987d3aecae71a8445ab81564f767f25cf3d85ade4556c075c3fb7ecc43f5c24760a464392e5d710bb3da5ef2c05318d1a3db51b8cd40bb5588446949f9720bcddf52dcce146a1f096c35d9c884b9d995dccc620be289d6c2233d2b1af46b6d032ca7fa142bc1e7db85e8dad9ebd6909ed35a69777270129be8,
  0x02be9560ee224c88934542ff62489c4fbb1506c50e169f3c0430a28b364d6c3c6d81e38cc50efd4a99f60d812c803ed7779129153833f603aa6e6d7e89e2befbdbf398adb325b9386afe2d116f349c6c7de38ff11df0c9efe8e62fa32bea9ef1f453d611f1cf84ced6b03fd572788c8188037b7ca0e04b7558d54521dd4ca199b53fa0e31a,
  0x57aaec1156288ce8354b4bd35ce11d33d69f9b7d0117d325d476b27cd37affd829fd5e76e245e1ae9b36e40becedd22b96882a9027c8f1ff95348dd97a054a078134d247d593c1b0851ca50888ebc8852ce2283bf2ba70e60bd2c7ce0400a0ba7ceeabab00009b116e119a777b5a3aa39ba8d94909d06e2365924c41d208ca8b7681037a67,
  0xa177ff7cad7b49ebe559ef6339e05422265ee702d39a7b34e6af3a4814ae89febf082be76f8807a8f9c50ec772edd8ef4b8564dbe624c4745eaddfed41c2c11d48be5b62a009ca6ae1664607d1b7dc7d6ec1131495fc7d8dfca7b30e61513305a044647a07d114099dbd1ddf45efe7a0cc2af536a08234dfb5084c45d523d6616652a61a9d,
  0x64fecf21000baccc4a4a2513bc909bd540751e9e5e1163821945fd1bd72e862d96aec53b5bea835b95b6de7efba76744d5af203cc52033d7081b4db3af45d580da8adf6f4eb14ebfd0011c36d4014e9bb8e79628669a9ae927735d986f811ddb1b1bf518ac909c0223974af8015c60e5e7e0fb5644cdac1e50cbf972fbf4d6bf0fde950a1e,
  0x6f710f7d9a0bef52df906bf43cdc9920aa4b5341592607bd09f52bfae793dae70057def8867429db8630bcb05ad75022e1fc17022f86241bbfc5f2eb237cf065655175dfe2778b02dbba64de94a1df083798ebc9bd94afec5ee3d6642c30661a07289883d5605bff66c3f17c593602580dd44801bc92ff4b65af52b55ea27addfb468450af,
  0xcd5d2d26e1180a1eb1256edb83727dcef6aef77238f0d5f6556c2cc3cddc084101b6e61b3f459f7ad3fcdf6d9c3aec3eede959198e6d771d0e4d161d28e1d24ba85ebdff180de511c9387dd8d7a3b8a55cdc8cbdb2b65a156b5ba9a534d576b2577586be8b1917d899fc1840e843471a478917725b0d0628d3f537a72f99a567da1b6657c0,
  0x450524bcab834ec58b5dfcd4775332685080188657673f4a76ba5a19d331dfbc7a185b1f00b8a6268a4da16c5fe323851cc6b7f1e1c4af073789da7b802f01ffedb85a727b8c20fd6ba9cfed886ebca6387409ba1de89b8172592894e47a95b5722c97a88ef2078b6aff39278cd724dd568b11672091812c9cb1d04a2820d32e85bfd1c95c,
  0x487106f78a0b3da557b8f13c0220bce9070fe39d03fddc5ecf172c15a73f73b2c39f5392fc7a024109646402f108d9f4279ffd2f90450c3619171698ae78770ade95590c97ecc7dbd0d1c76bd151330852992ee0e4bba7794c6e55230c428d92a9077982548b86525805cf93492d42e4a46884a26ea05266cea863b6d976e336e3bc3c4586,
  0xc7979b67998a8b26137dd452aa160a0c4142423cfb129604a123e02ccb389d7c5c10a7527dfdc4549d878a3b7ce588da805b13faebcb7fd654676c194f96213e97d3f6ff849f5c5e413499307c0d81669b2cef43156a607f20e517cf829b8c39845a0b2669e4bc4cb6635d859ae93b238c7bb64a2b0d8870966bc425373a99f5060449cce2,
  0x3da5556cbfac3c50c61b25631fec0d7a8d0c6a5da7c2ef18e45b7a4ea1de6e6d4d6b1497e2af52f32879d58dcb91b4bddc8505a4b290622db723addb4ed5cf3a4868c64091e0d9e7b7fec88a9127b885477a679f0034a14e99150630ff72362943bca4690b61126d2b6a9ae4ff288be7bec74c7070d679de23b869c6f086e6698d59bbb3dd,
  0x08170887a6816c35ab69a55278e1b0d252a5bd50bc25ccd23af22989acdc9e3666db0d2185d16d3dd2a8c839c7e1aba9a99a7b5c49654d2a2641eb303161c743d6f127e6e2ecd6836ad94afccad05fab9da0c3bd676a73e278d74d878959759169fe718e8d5b962f066225445e25d2206df3cacedfc0880121a552c1a4d6fedbf729417fe1,
  0x795877dcf3fb6d45cd8cfb0d1f20702c7f56b02eff985c246be3d2da787fdf154499281341ceb599a07bdb7fb080cab431fec549aff88f36f86aba564b9bc00d2cc3556b4e8bcbf83fff535c59e5ff053f25aaca3ecd7cb316eaade48a78ffd21de5b7d7c74ea393cb18b6b6f074014bd7ac43c44f6aa27326574dfc1acb2b738d36daf34e,
  0x69313989aacbb7a9a30dccfe16b3f56cc7c4bc99a1ad963cb59b60b84f43ac762f1dcee9da79214d79974277dece94daa76927cf887f735d930a647889c0bf3981535903ee3e9f3d37b4d9abce7c749562c8c28628402c6da640599af53a9d18f87ba875220202b3d3b7ad0c44c1ee4c284bf30c8d397be3503d3d501f1cdcd5b4a94af16c,
  0x5ce2710b0fee1e6e6649ee2696209b2ed6b80d15aa86dd644bf88e8fa780f35cc17434e75504bbbc3f981783a16a56fb1ee5f8952aa7df6c1759530684288078556a801018ad04a743e80342882f954e4a63022bcb3a96394fbe46cd0722e4cf2f150e6718559f0496e4391b9f145cc5bd5d5858fe22bde04685370454a2af74ffa9b6956f,
  0xe6e04a6b03183bec23c31dbf5a022a0162d408d4c3d0c824a456184e0a414c77d6901d7c0e7750a843fb476207f7c5f7b82bd72044236c1ba1ac7c680f9adafc2c0a99bbd105ce13e5c1cf269001905580b76c2250ce57f3bafe980b6e00027f4ca9eae6679408417311472b949dea57c0bde9bba76a2ca553f477885994769b7fecf9416b,
  0xb64ba0d5f229e4574317bea8546ea1998c4d759d94535817194f24bfdec030cc7f74b45d391ad6fc4a58a2dd1be454fe25d6b290b8267cd6db885b9700292689df23e28e58afed554a08dc9856851efa9f9597de9475d5b4db6d6ef6c7e8143e0933db2f057facd33765f724364c93c5d622f4787283698738463ddf9b5a421eda39a28a8b,
  0x4d97de2ad09e31a30706b3e3603b79bf7a704297a868e57bac4427a024785a5017c6ea74429e57cc3d148b8f4987ef5590c9d88b3260c5111bf8156acacbf65777f45a09dbb9be82cbdec2f4cc13b0fef39fe20335b005486ef1b808ec21f945f7464980dd5d0ea0d7edf23a497c178a2f404c9a169fb6d9976d3f80f11d4837bc953c37c7,
  0x4055a0f636152c1138a6549c3cbd0425ce28d1f5f93820787cf7a1606fad8f3bdc019329b4caf65bee379008fb3fe56db8fd4ae3cab825615e523978902af2fb0b8bf26886622b589d4918390542bddf0cdf924ddef74bd901fcd4369b804809bd170d52dec43a00943a33d5a1e19b2e571defcd7c5bf3ecd89e66c963e8c4c1aa677e67f1,
  0xde3205125ead7fcfac1f1852a0e498a9158aee71c2a1d2ebd62653382191731c628fab3bd8c9883507affef8c072a87bf378af8606e97f397f907669b68e3b7e5e9b9ff811a18e3430de1717d8eaf205627a1fbd6c139ce49609dd9bc0875a6fc499c633aa19897956301154f96620863e7824dfc3448cdeee528c2899ac148825656f77ba,
  0xf992c6d676c7d6fe445e1c731b5b67167a3b870eaf11d4c02f2882e2eb81421767eca6a70ad6b5cb84c8e3d01dd8080578eda24db066544ac3810ef836c7899b519826d7d1dbcad345ac8e013c0c962a7ebb0ef0f4f6670dc107d0d9c160d5a83e1136a46a5d963756bd5a71010adec4a725186d5e06fcd5b5befbe62e95a74f54b1c1b6aa,
  0xfbb126743578428d32f55c6f7cb836a307114613971687d16097baca5a92f2277dd1cd32aafc1fcb9ac58e65e0ae7c81c53dfe6de5a88704ffe450a33d200ac3d74eb0f70a037a68ae714a0fee355c3a9221b030fb92ad80c54c3a711f3ae8423aa8e604d6d3756d29a9b3157d0e8882c64b3cf03a8c6896bfdd80ae684be80585e0058c42,
  0x21fdea3f9f79f803fc0501f5d7dd558b54b6ec72b1c4c9e66824d78ea17c5be7195cfbf139d4286d69b42db4ab98306220fc58d08e2f8b84c68bf7a618ae0ca57876b283a30bb39c71581471b1f345dc89468c1f41760c270f3f52f438caa21afe4993669433e54875ebfb0cfa25a1db5b6669173e78a77b25c2dae460d28ab6edd0d6c32c,
  0x85a69ff660f27402b6023bbd621797131b120b09b4954372cccda473dbbdfdc77cd51c30e885962b802ab11919e7411850ce5b9e8edb119d28608e48e454dcc9ed5d480b4f28efeb0d610bc09e61cebfb9a32736e5b79806ce989eca72f6c3c66f8ce02b07eb633fca5363d05c4b9a988fd88a4f499bd5867c48e14fa630fbc8e90f1047fd,
  0x80255bbe6a7b520c3375c0affe0b175d418e73b74b5a5b4548634d2ace81fe61ac80eb969bf8fa1f0f611235e23b0da66d516aa2a0bb6de056918fdba648fdc684a4dc239585976e265ab41aedf876a00addc7f98e5e83ef11c8cb940cce1978ae8a6e4a8086ca826468130ab32e9565d87879b529e77d9a604634bc75bb1f89db843f5115,
  0x0ca85e2eacb6f2a6a2a8edc27d26a06f09457c09a16b5cd878503372c6d41ed0212776601cfe7c19321185ac2ca8509fdd79290c032c9382347c95c2a2f634649797554adad3a64df77d672d835bf36b2539f6f5f84b1eebd32fb1dbab9486b0a223c0e6f0a7f24a45a655676d6a488a7a276da0d7c40f3d29d39b7af372e6a91f081b9b77,
  0x394472d13758e960ccfcc8ad07329b191d3d42abbb77ea6b0760ae6e6e4a3d77f18b18e31141904874666fcd14ead8a5a95be2d9e6cd2ab502d71478fc8ee1a3c001fa125b6b81801da74ffcb40ff3c48bac631ec1c49243ffef96c0e7af5e3cb37e9fe58ddb4d09fd32ed6df9f84e2588529455f55fb7a770aa1f5dd1bf12f1007330946c,
  0x2e158bcf75211695bc9689b58d78e2bacdae2d9003957d5f75bdc4b9bf285ff23e057ef733a78fdf45718f64668163168d08532cc82f88dca0c821fe158129afcea41e59a967485d19f3f112bf00d0df4287f75aab755a4f462a84fa2ef143bb66e4776896ed8c6e6b72d8c3bb51761a49bac7b6f483c49bbb359744ffa031d6bf80442ed6,
  0x526cbd5dcae58cba655f7f29062653d2cae6ba48b49d5f524ea576b5dbf9e1a0f6186e186c5d21ff46eacbc89a1128e49099261eb7f47774daad34b4bc3640395faee9752f978d23daf9e64df68d40f70d27b176583cd4b401f6d4636302cf3829bc0bd31402a0c503af1a7f89fce174dfb55113413f183bfb0f30a81c3f268cd7f82b01ed,
  0xdbfbb0dea57fe2018bdb037615decadcf04725bb1b66cb578d185b34bdb4a5c1c6f23af2e399543beab334ddb890dbb11f1a08c4db90c9b5a94c6b6932ab8213af133f4715cfd50b2cd2135472a2fd9b0b92d0aa28cf32e41279230179f63a3293e7dffe104ee5b112b4ff1fa8388483a6ec28397f25fd8142dbca8119cabc663fdee68917,
  0x90611bc9cda97e599fde06a4a61fc460412f66d063ea12397b1d68972d6992ef301e859929fbe5c64b279afa406981f4062d4c86b1f12590889edfec69d52c091823c697bbb258864cacd8584edd457d0a1106e80df509363f8049d9a977c3b379ce143f842055d024fd6c1bd98048017fb03ac68c537455ee22854f0b57fe9092e3dbcccc,
  0xce3d0331f5ba80fbae45b2e0be03141f55473d7eedac6646059baba47fbd808cbd965b2c99fd63aed7f124dc9316d64cec464a2e6e345f5a29554b8151cb6ae828bf9c362315bd4bf2e01348f0a73740d2f09e69342755a0a3605ec1a3563a3666ef1af27255f53875ec83dc388247603ce5cee0e562dfa802ffa3532e74d2259e9809c082,
  0x1290f0df77ae3d5b438156166bda8841137889da93bb72975dedfb1bbf98a71242b38339136bcac36d498801ab00ef88bb7398463a3f6011bd42ecea34c7feeea51b901498ff1d0083eb03bbc947447c2ab24449de77c03451f43d5d6d3e6cd70418339b9354bd6865b655cc36698e7a8eca02812e70756b771a1681dc37a8e9e9968ef968,
  0x11028e7411ae594b0bde392ce447415f14094a3c77f72dd23bc7962ff2905b5c480b8e672ddda2c28b8db4b126a27a2c278eff63383edf6d81ad077b5e9ef9032306783a28c746378734cb6931ffb55099edfdacb3f699f16aff164d17d0ac01455444640b3f21ec6c30ca31ecc647a13025869e27ce6ba177297af7e63be894bf99cf6b1c,
  0x8333dadc61d2852d88db980d57b719a54984d6cabbbaea0d15b70db26eb6b6ddd8c73c8e00365d4e9d9cdcd67b517a1c822d1d868a5acd52847460e58f4e1251651070209920b6654a4bb1b59c27db06a9bd49907f1d425179979821bda222cbe682e94787555a628f61008f5cd1200f1bb4e72ebc38119833ca46a43781bcc0a7aebfe102,
  0x8e9c1531c3191f77ed628f89b52109cdbc4bb38be13a3bf3070fed1fd2f45b1ee0d1dd585e86da7e0bf85c15f4393525415e210302550a391e53b330c5a6c0debf83775184021f0a1884fe438302ea5aedeb3073098cbff717f95dfa093edcd68d0259e43b7d7cadea42aed7ec1178ad94c621d48c915b81d9af1312d62cc931b812e9c94a,
  0xafdfed3ab43e668859bbbe158ccf7ee503fa4a6103eeeb7a54affd54b5f010ea8a80d9bf1d60f6d5c17d4d6728cefb8114478285432ec43fb6dd62da65e802b22db9d1545ba2c6c6f0efb71db0ec5e2c739b0156ec8237d31e296713f169e6e9e2ccabb22c023af4804a61faefef49e3c1246b913fa15e7ab72da185aee3803e7c19937633,
  0x8c4264ef3f326eab0e6ce33a534eca4db6fb143c59fb172100bfc4424c69045f0141a693c5a63aeb721b209f42fe9e60aabf7c3619a2e78f869a5d675512dd293d8e0ac1f1115a6d059549f0b507c0ff14f5f09793e0450130f6c2277ad12b777ceda677ad864c7d6ca8d2047a93ac04ff204ed97998a575a2a1d837ce2bc3b2f6e02c2e2f,
  0x3c9b196ab2fc6ec24090a5533b59de0eeed070ef4373459eaffdbf64cc57a5cbb53c5424c832eae84d3d3f7461ef0d52ae08f6448f177ba3cf0b33a113b0681a39f1fb6a12bc418dc52a7eba81b28d235ed0d3263a909c2b63d4f1ba28473b0eb3fcda98103f72cb310557193561ac5802b7509fdcfe8f7b7abfe3b22c6cde4929c127c2d5,
  0xef6b0a5a8038d446c79e32fdc951dedeb84e89ee977cda7dde0b42f71852b89e92550df9507670ec49f889aef16377358a7cbf3550b890406940634e3219a3a5c0675954159b4329387ecca23f0fe8ee1499ef097ef4c9b48436a4514663dc46bc0ec649ffec940a2c1443cc2435b0764bf6a015320c47fd8ecb03c4d476a90eb355f6d416,
  0xc16ff78dc9c20daca6fc6cf4b65c70f437e5558dfcd3c7b2aeaad51fbc9eba8eb1242ef95b01f552ca2eec03a7b9f4f6624e56286173415165e1a2ce104c0d60f474ed922b96a613776f74246e2629913f28dac0d49236018c6fb79f20283012d46e4a65a2730df34e9121feb0750f4437dc9693e25c03d7b94522178ddccf4f0b722d72da,
  0x22f31aba7af14caed4e61b7d4064cff39fc0022684863350da2a7c7cadc43a1042fdae7f82f7fc9017c1e80d7c8e3843b5fa82662ee320c9176e3dc8b73b72aa4c0d64b96ea6a9037cdb034c8ae859e68b8889262f08b2a193dd042fd1f3bc8262d0ec63d4b830c7fdd5c872392eae8cb2d02b4bb206eec3ccd4c498985cd264735a311261,
  0x3a9710bdd1bded9ca20e8e722b305fdfd4850870f77cf128f8cf744039f3a508c1df127fa95dfd3c3982e8cc73a7e16b6806b47225a69d53ca91518ba0355dfb17fd4d52d5499b88e2a2afb0ee45ca10da39b7688c8b041f55637a09de236ed4e73f8b889bd244c16fda7bba0ad937e19b7c99cf512b3d69be6cf952fe2cd374dc6fc92376,
  0x66ca0fe056c5f0fce37b29b19273fee48748127ddb22336250d8aad355535c3925bb9d119ab2397f10b717f1044c779ec00c622fbbc6b65fe3a9d15db6e816ee9a798c2bb0cec58dce3efbb85cdb6bf53839bbf705a460a55dee4d851bf76db18e84457a78917764802b4dccb5b9e1bd1a7335d301f978f14e19ed10141660b415f61c4b57,
  0xd77247196a58dc934774ba99e21be127fdcdbca5dc997d4a3325276131ee2c96ee6c43ee3a0f0a37d2cbc9b35d70f20f0aedebf681c0bf40faaddb848421dc0d297078fa15b8ff1343492a29dcf487333e7bfca46f641dfe9452f62d2e5ec58224483a4074c6eee6b2ba4a83d6275d8f43924b2fab623ed64432829b11cde0ba6119902aaf,
  0x1dcd99a00a2ff021732cc7c2cf45cf6e24b2befe3236f147e3794be1cdef9ffbd2c0c141c9b0f81bc63041b6c18316b081b3c0c0c4844ab81f1e8f95707adbe8b271f3f7b4cb5e8b55f06f5a61e7d06f0831a3b4bb14dbddc26a740ed359072810a82d4d46ccfdcfd8658ea3008bd9f05d211eccbb2c4f8c7cd8e29170011f2deba11736a5,
  0x75689de32ed74fe86ee1eb3e427fb1293f9cb5866dc723cf23412d92dd34737f3f8f3a8632917daede11681c9f1371178f8eacdb71151811961e0b76144bce7a6a9211e551c05f54d0947f89b20c60e29df187a81cf4b0bea4929873f9fe566db95504ad62480ed48d835fe3737cd3a84ae3234d586252764ff76bb9c16354b8b16fcdbb1f,
  0x9a851732ace11af65e6782190d879080cefe4f8cddd74c8afd0bf9ff4a1401d29d2a5b8f748300f981402a97fb9bf431e6c3b302868333885a314555d30ccae3945dd7a12bf896c4fb56f16400eab09b96bdf63f68fa1ac32f7ae527da7c2116ea61b120c7d86b97cf409a66983d6a9ed1b3d4c80d6c876bfd626b1abdeb7f86ea4c6596ba,
  0x778f673676707dee79bde35b02621521f923eb89490e42ca2c23eaca72124c454c43b422a9b451ea17ed5c186807714ee50a6e30d2463aa093ee1343ed72f8c845ba047f37a4172433327c72f02a094d28a5537b04e0c697b2c74fce9bbc93cb4991b3d1f9b9843763abb5bf433f2f329c0b65d59b29077b441aebb4adfcc4c136d8e90596,
  0xbbccd56d5bb6e140b8925cc4c009a1cd6709e63af4646df08555b6b0bee7a4bfd286fd5cb9a14a92396eb2b78faeb6f617e17ec0b59080decac97528a31a23610d0823629e8eb5255269da5f57badb8529ae0959d87dd021ad21584746ea9281758bc5e9ee98d0b7fe01547780a24add48537882f273fd9747a7d946cf6ab299228f74ac7e,
  0xdbdfe27919a7e094e22c434579f10008987346219447b9a7c766a74e5c971690edf30a6ce31be5fd67d6ec067a608ed9fc65a88274b542e4c073313fb3e6f37f3238ebdefb8805dcd3e3023b4ffa3cc16386e84b302ecf2d25b2de1a2193b1cd09b7d22557df490bf284f12ba7a5008ecd63fd9ef6838f3742451b014abce85a60b4d31a94,
  0x3c931fa2c3e21cda0fd99514ea27ce52473edc968b22ead0a57d735fffd369266d1bced3e83998cf459a1b1004065d13582b9abbcf3a8bda05189a79aca0e17ebc98064b8ef5716277adc6853d87d8009eb4390e9f5603ee0df6cde0dcf4ebc90bbab7b2d40c6e1b1dbc740959e1543cbc034a15e554898db6016026a8d9ef5038916ba3c5,
  0x511e0b184b639111cb160cfc23c801b925eda7ce0a3f39950d459c6a9eaf195f2b6b7aa2d66a9449131f792e247a69e696f65859a162cf2021794a6271d3852c21d07955b93e842756d9924d1bf1a5d8c4e82b2f1527ee7300c6119ffba52f009dd424f85626486501e663c0c88fcdd6ef5deffb2ac5583537faf1dd7d3519c62ed25f3453,
  0xa2f9372d8a6b33c029d43645b73dc5a674ee9f66cf7dbdfb96bfc9bc5295c7c156767411c2847ca443b27cf70ac992834ce0d6296d424d81189f82dc6e795a03878ccde8e1c81cc613533ff60312627f62cf1982a5bb8d8aff2a6bfe480f1e6f63bb5d70a78b120a96003046c1f976594dd8e4669e7eb85c2f6478ab538e7b090535759d9b,
  0xa7cc8b183d43fc56e81ee781142dcb2bd886f683b90f1963e91719fa66a23da8df82b67a8846a0ff3e33e1b78a75e89da914e912799a059731ef7cb320f8d1f485f904662921b6ce514eb2d7f8ad6e836392b69e3c814d8d2e356e333ef4b3a3a81a9a9263cfe6fdad9e968369f9b320411843bfe6e5cc74ab73d2891265655cc2e0eab77d,
  0xd8c6398799bc44f146a290b45dd87da3aed8fc6c12a453c3b071fc7039008583a15fe81759e2aac0ad922c5412f09f7564d63f5db2d59527738a0fc5ab42ac4b137549a390a4c27bbc1d61ce5a6e7695b413416e304a060e50c724fbe90ecc6e53f6332270266da0043ff0ba9059a6439733ba81de5391606e539524db2fe6f075fec7a492,
  0x7fb720c5da9b9d98d4a1527b7516b1aa6e295ad2dcc11178aa6e1a9c062ee1cd5485958f2c4f33ee9344cb08a1673631a18fb3e4ec6f5c17fdba33e409b25c246c0202477ac64532bd8c25ed9e219bae74fc526b63cb36243037812d3ed9ae0dec9279163b16756d184b91f2029dd5c169e019b43c56ccc5e237bb11f57307ca7c2c55caae,
  0xe054847da1e0023be9aa81d3f9a5eedea098dafb07f399f2d57104466b9e31166314791ce332f7a0f5c9707446f2562bb2bc7d0440eb24480caa67849683ddd038ff0cf3d114acb9880dda8934d23a9339330f368d9b04de11e4cbdf13627fe53d5f4f968944c8ba58ebb28036e101aaca43bf8c37c139b90c8dadf288cc4b1fc908df1cf2,
  0x09b0aab8b513210b8367aee1a4fa9524f238a36320205019f4b5a2a1acf4528fa1f8b42a296e8a850f2e1832be2614e2d3ccd46cdec4f05cc934f5c6b9e5c1457f6ec8d07fe89783d389cdb5bc9e66fbd9137aba90a02ec14fd12fb5674714cae04f2e1861c680e2e97e39a08b7e9087ad247a2fceeaa957378583551ed11bbfcbcb137c12,
  0xc551334167b0d2be5de8622ab43fb0470d3227104a87acc1a8ed4aa51f9a49393ffb063f147fc690fe1fd68dba6c04345e70bee96c1ecffaa21dabe1e39e2ed894b1d59575323ac5aefbf8c7aab0b616dc967ce42f9163930aa93971ac398240165c6afd67d885afeb5e5b1d1f563826860408da046b7f8246424db653f8be7809aabcf0d3,
  0xab60038e280f9f7e9fc3cc1a476e3ee00c99545aa2c804970aadcfbdbc8ab6b192910eb8a247631e7b151da320b8e3be3197f038445fabf9eebd91401c4689e0e27ad06e45f5d41f97853e5138435d055db65483e7ee6b57f945c0ffaf5cbe49e4d6dbd5abc975f139215d0fe08d397db123eb99e5c1402f74b9b81ee7a8b058831ae5715c,
  0xfb54dc8b765de7a3781bc59eb1cfb4d7c8bea0c798cd4198236c83b66c379c082dd35da384fc5b26dd5f1a921091f5a02a78a10f21a866dbec370777af9a17aab73fe2d8cc807e74726370ac122e825cd5f7330bfeab35644a69a88763be5b4b154e2887b551bc9b7aebb8e48627b9afade930aede46298bb72984d78cf6dd6f12ba580de2,
  0x15735db43d2e931e8efbadaab0ac6337b16d8326a2732e93efee5374ae7b0163e22bbedaa5e51c2d6ec53f425fb3cefdcf6f55e37a7918c1ff612f0569f73f44591d916b84b38033b2822332c5181e7e6438ba2e8aa077228905cf5fd42c4565a5b41037aa953e4962a182378f9e104e6e9d40c79505cafde9f1735d048481790e80542b86,
  0x914b7be970ad229501171bf08c853b8b50c55f56863aaa962fec1faaa70e9150725aec9c8092844effa79107e859c684112c6ec5df2c96d068876b07ae7c9e418cbd990dc31f7dcfe754ce3fadc163445d2c3a9b9ebd179087e171b6e6e7c00854534030296024be4e6b772b750d3580f226e14830dcf2b73903259dce92747e3fe6f764e9,
  0x98eeae537b9e05258a01d7a2eb5defd595977a5940e1237add1e75cbbec75feb0f83d97827d7b1f2b454222bcd7ba9de873bc45aefd218de246063698bd9e363ee4ac424440f30da7d267ad7d2431fa78fa7d0dd6f592557dd62d61314db8a0751c6f881d90e1713fbe5d6764f8c7288f193ae8288f9d2af076325e0d7eb274b769bf1bfaf,
  0x62f8256c233e78ada05d4fb9e531bc1f9fad14a5d7ef9170a30acfe6609fc4c8cccfb929b5005ccc36e0865ad315a623fcfe2759409e996d207faad7d2d50695e180256fb2d146fad2df0cd9cef83cc7c0962b7e138d92645a9957f896fca8db431ee84735256fd5b70af0483e552a09f27059f83d9c2855070a4c6f68b67183a454051cf9,
  0xef6d3bea9302643ad9bbdec5caec774ce54d8383ad6e28dd2144dc838d7a974271284a6d507a686e0f82454fd22c139ec4d65cb5c57e0dd0f5c1bd1d008f93cbe98dd9c9e7e475dad0cec87d0618c625cb24ee3bda1e13ffc3f20b323f445ae900c75f2d32f1383e69ec61ec3547607e23df85ebeec52eb53e98848d0d45638c7c8eec0827,
  0x32e98fb2d9a3bd57b32a7caad4a0592911642ba7eff420d8d0f2e644194df7866dc06804c609790a9c2ad0dac28a6c2701dff1785b27cd5ca09c8adbea333df9d4ff950367bb2511d64f155c644450c24afbe881ad3d4cb5e69dad30d658e1e39095fc3560a034157564b53b6847798b74e628e1adb73012fc6ae7cc4376b622a386ba68a3,
  0x68d4f467e4ffa20160d2d67b5e9e0896ff8da23ee9fd756651698821d9ff336cd4adc8c4e864957c89b0304bd6823026f8dae379240f3df8bf217af8e4d0ff9973eae25524a440fdf88ce79e230faab5c3007880e550478166593f61dc9175ed27e4bb3e80747bd39d0e1345501db256c83d785bc808fdadde6431da333e7e60c378e7feaf,
  0xab65139957b33cccdfcc141c5f8088c1d60b8e4b55f243277d59fde2c4389dc8bb966f5102ab516e66dc671d966315cd589ecfa0ea0e241f528a8ecc2204c101bd8393d56d23593ab971a7357b8909174b003607cac735db2d5d5e2271edf5e9264d4847829150faab908ed8686bde6c643124441abf11b859035a5b33fe24238e3f2f7cb1,
  0x536814844f36eb43da0a048d88f95a31149e619a3db41f7f2ff2430e7f610635d44f676286b47e517531c2e5f574f4dc6ff46f4e3fc139d27a0abde34174ac3d5ffb37cdde6c2ce31d58bc102b1a1c034df8320559827768d87997e07f24a369e08713598edb18d9ea64a822b2859e789905aa57dc4808be20416e1ce48f13576dc1a21505,
  0x6aa455167292b898d679c31fc8e188cfcd76223bb4b5c779fdaa6b3c4bed7e288f21b0bc882c41e9d4b8e2f3efcff9e4d667f82cbc4e8cb840276189f90b491783ccb8e2452de10a0f459913192392f14d02f0ccdeb876a5cec857df19d933359eb639b8affb3d2b3de815687dc59b3839e3273bccef8be3b3fc4eeb9bba0e3c809d57c219,
  0x25e9384a225067ae748dea193e653c6a9e6f7bd4ce70eae8b3d2c0de9a5d0accdea0c00b1901798ddebfc454f6b3bbdf91834739fba441fb7490f62ee67d759a860fbb40517848f4a2b63b5361cf7d89b7580334fb9252ff1ee9e1873926a142f4e60fcca52e836f547593a8209acc5956e2591774c199e7c6e8bcf0889b6554a4cbfbdcb6,
  0xa2effe18a891ee089401385207eb0de7daaaf431d364a1d5f0ed1290dc28e1779b0e4c0fb44e78fa6af4d3432485b0a5792efe71adaed71af40b8e9e0bf44cda38886b5a1247d60a77f96a372de2a5e0a79cabbde8ef817ec322e58fffa21eaf2afec5b4f3fc493e78fab1c356fc4bbe9bdd87d03396fb834ee50836b413d1c543133805f1,
  0x3582f068f81396be5379defc12c1ddf17a6c59b5b3fd90750cefca37035f587214047a020674c8aa07c4897a15a8881f089eb91b53321ba224546fef59a6097d00c002d10009e752b053088fc5e5f0981dbbb78beeaf895daafcc596c7a3944c96d01fef9659616617212430f89c3e6172401df65d33d0ee1fbb7221cdf46a327bc3f43d0e,
  0x5be99f2818f2e0d4b30b5ea3eb35e0a4a2ceb4fe7ede052eab81ad84749f66ced9c6781a8450e2fa739cc72041012e71fbb077d6b0b886f7d56699a68202878ca88d5e477d571dde15f13d09a9e4a5af2363d8a593ef97d142d7889c77d0f119116a0d0c6da65ac9097e62cf86bca43d93e7fd6a92d200776eb052dad0215f468b06576808,
  0xa683f430f1ce61189ab385800b66df248d78e032926b5893f823251fa17afd07221fa1fb817fc2daa112bde603181e9e9e21f6f973c6c9a1471eef4a3b088cdf63c4e257048818c7778e493edab6523fe9106794c871bb8d2bf39ab377ce6e8ab50734e9dd9f7ca2e319493b1b73e0078081507ec3c569583aaae8c75eefe334007570ab4c,
  0x0524d979d3fa899d229866d16d9d5768d525a67ff472aa96260a070ac9446f145d43a8eb5eae2aad4b49ea6384c1ba5f6bbf4ef68291b8b4ce79b413e239c17049103765d8fde570c064a00461f0adc22b5f732e800d456c1bb5be8675e2be5226d21294583af38a49abef206917596d93ec5af2a15d4fa9bb140a7cc1a693dac54f0d7fc4,
  0x694f6264ac04839fcc6bace4e7c5118036f4d2099271b93f692bb17e16cb2dad8d65e8219c8d3702ddc8f566e4636517decc9b6b8cb08c2b2227d7c2f601357350bec1e8aa1acedb5a05d6f19bf19f5cb3b142f4b293f29e26151229d5970e8de80362b8c29bbd64582886f140150559d092bf5b6d61f0cfd26df2ff283c46c1e1407e2242,
  0x22e30f13052824f9cd9bfd4c8560ec944c0effd208c317c6e4464a276938953602a6e662d06e59625461ccbdb3dd7678962c356fb3b95070e5170d8a76b6ebc013b651f3442e0135870738ae126f9312c6f2bbc1550c7d3ee8b3f040f096d67495c47d3a148bf20575f69ae4b39f7baba0d31666cd1248741f2aad8cd8765649815a7a2b0e,
  0xc0be1f81287d5d02b9da8c39f15082d58979d9d4bd03457fb77ede9e4d14a450b49adc9ab4c7f7bb57d9c63a25c75ea5583af02e04ddb4e7a616c43391404c10c0155d08cee280af1a35698ac4e159fbd29e69e2328f714cd21aee213543afdf6670746899c4792be46a643774a17b7c1fac98f892dcf4cdacfe18414af3eed28fe6c49436,
  0xfcfd96184605829b4622ef0754a2da206ed942755f4a336ebdcadeafaec08c729220462795e909cbf246e96b5d04d102b6ad37a3534846a30593d7bcd0c57cea6a316524649a6c2b33b287a122b365bd629491ea0972a1e7ee715ac6de1aae6b298ca57ddfcf8f330fbca77f2c94096461fcc74b18c4705938d4887fa68049768754a732f0,
  0xe2912532fad4f6c2315d752095947646f3d579230526a75a86dd237009c56514a49b8cace209ac44994bea5174371d08d982743230a36b5e8ffe0b34fd1d5a7e32e94c4ebd68ba1a9c09b8915c989fd7b78efec3cf81abcf8208571674967797e37bcff571d6691980a116b9a19f5ee69cccae0fa92a09a10d99ba1ce080a27cc8bf86367e,
  0xaa72aa123619dabdc7a6c99e86c0a20715f7f88402fb86ba18091c62d5dd145d37b88797e9db52e49e64dc95b0c3ca4f37c0b0501a89d0d55af6c131856f7b1f9239258eef96bd71abc79b7fcbd0afd5e9bdd728260f8fa2dfd28021fd1cdcf586c51703d39fc68918a20ce01efdc3bf02eb1f18950a36e3fa27503afa96c118dd889ceb65,
  0x2230c2fad3b9af0858be1114df87b2785c66c3f8b86e7a98352342fc472469be7ba781946ab23839e06dbb71df2e9bb3c6195aca5b51bfc90eace547fda7fe842fbb98bd3a5dcf51d39add9759fcfdbbeb36606ab6640a387bf6d0c1b71fd7f5acb011a2ae8dcd883ee0e2a9058b711c3a7c357596e88509a959a831ab887b642534bb4f4c,
  0x1b689cdd0f7f60f870ad1e8def13679568b6477180c085a48d8fc5b3865f68cf02d1acf99d05bedd393aae2bf20e9ffb83c3fd9f4747dad649bd7f268cf5535ece2bfdafcc3f2e2a879d29d6b38feb4506d92a6e801ed00c87a03667364336830a4680e997cfe240cdcd26e7275d149ac358f6684b408e62c8496908a7ce86fd9f2c8f1b5f,
  0x16feab7367546f4c881b03f5cf48e7d8f259a4518531a3bbaecf1834d66a920979b6188602a20f481e80172ec6ee5251a8a44de27226d44b6249cee14feb559ca00d5bc0c03430ed5f03100c5fa415e290484ef89c835db19a16af83f3c8fec3daefc4a6748fa9df2108815e100eca5e01009eb8e58db629d8d929e23574984cbb8c3a033a,
  0x27589dddbcc1e342ab7f5f472e6a03a3cfc818ed97b5bc1cc82d9199618e84612c6d17a0397a715e899fe72d245a8d0f8c9b2b3a6ad556821e1b40bc2a7beba43da0b53986c85e35b9330f925c678b241f1f2899409a0ad7f058a8482b9b4175062468891b656254a08c2ee06779800d1224a2c8a14cb7fcdf1f033c4cbf3e035d93d3a19a,
  0x79894dc2e56bc76071590ac66f4bed2430e2a315c5cecc2da205a45efc602283f2b89774d9335fa44d09e7fd8a08c1dc8510ad9f4dd41ae9e6f22cdbddec049dc921c0dabcda6ed4da7ab07ebba3366de58efbbb0c0eee30c62416d79b1582e8df83d6fbce5daddce738a020d0a6a71af65bca68988602836724d7af7b5bc667d60ca4b3f5,
  0x614cae81b6c53645fe9de585199a3e28353434deb1978cad959741820ced4ff159367ad1a69953ba67248ae4fc1d7984f2c383908afb78411034b0fba47fb0def3aeca131a11d04b1abb9733c45b2a69e261f2cb7917ba8877813a09692a2f7f52a037beae583bf9779b5df83037b16d42c9a609b341cdd562f4e6163863627a87be73dbf2,
  0xfb0c891da37bc00bd4fde79733a6fbdf8c1f589c742d310cd8fdc9f442560e97c2497df3f17b1a9904dbf7062524b374b384192fea05850023e063512725365d70e22ab612b855fa5f9c2766aa7fec2db9c5c81d84552f311ac085b3eb7c7f0dd39adb38ea5bdec75d5ff37483805011e86f526e9d47386caf37e311ab9f3a3e6169b5b91c,
  0x41c75a14af0ac015e5a90ad0040b0bcda2abc6502ed474f3cadb5a187cf17c46ed456a714d0bbe258fb5097ae7fe14c21dfdad91ef0062c6d128a03ecce48e51d6664ad678c80c5d6eba0bae03a44e56e887d622fcca41c2ec52d62090062aa05ceaf0b186b0d37bc6d284a36ac51af27c85d2b0e43db6c3a637e7fa4e2adba0f977ba06a0,
  0x708849e2074fee1a82c15ef5b2bbdd3b23a6d9da8c5ffe7ad3c63c079a83329d3e2c0376143e628c905fbe839b1e97efb34c48becdf55975edc45e730421b54194d6f393b7a149214827ee32c7931f8784f29dbad3f444c5f9db2dcdf4430ff674fc798bfc227e7516ab32664090f275dcb3156cc8fe5dc000df000e28184cf70741029bd4,
  0xf112b97104cf61c61e27483d439b19ca9a4f3c9d1e0abc722bb477ce3541d38fcdcfe689f5521d7e7bb534a8eb8d76d407cfae16f08e84d5b322efdfd10eefe21adb435e48cad64cd396522aafb8ab48a20731da0d8837aa14834bde5f2cdcf3eab7fe8e2a738f6bdcf0989d3484cab6f15c60211b8a5fedc4375d079d16e2748cbcc890c9,
  0xb3f23ea43ea0d7b9a544027fa3a4cfcfc8dfd48e9dddcc7cabc3ec9a6c2a4f5398574a949586d157683bc744183f156695fcd919e986081b0ef2745cb51a1b7144dc8bb0d5e8105a0ad27436f8ec8b33522b76b21d22c8fceb844d223c89499f6b54cc93fe0f1a7567f37756f5ed53a66bdf7fa20047deee5002aa733679da37e0514ec1a6,
  0x8472bfc747e86e8d024500f3f31bc473bf61a4f9932dd48c0feb1d20986d911e0f52aae1d931fc8ea341a83c9c840c11cc1ed4df373f2170e1d895eeae2ae33813a125a69f25076b4b86da5c1e75a38dd9669bff088fb094aa5df9aefaf130d321db68a71aaf2179fe7bf47b86c2c66afcbf1a5308c9935eb57f775af6a476904161377e60,
  0xcce1fc9bb7f116be63f31feaf8b448c4001d4d15db537bbb4c3d74f70c73927f63499dd8fbd8a57ab844dec8ae9214b3fad6b5c81956f582316fb9234b73b4b8f4390f3f925e4429947e1d8e58570faba6667d0c7b98fe514e5547846fe42b21ca2f7fc9ab6464f6a0882a269e07c2dea509c568a14ed1bda7ad53d93515751f5a1d09768c]

/-- fsb/src/pi.bin, bytes 136192-153215 -/
def piRows8 : List Nat := [
  0xbff8e33f3563710856002e9af900acc574678f47ca3deadd48109880f062cc251133d7b3a60617063f6ef9f2cf639e1934f5f0af27bda9632c13de3d2d5dedbabe2a66d3066b50fb0cb07d16297c0a3524cfb159350b39b5f15563ce58014c964c440fa3a90a2975f011cd9fd8160c9ceb7699b2a215f9ad5b2b00fe0030d5d100727e8fed,
  0x6f6840238f30030fa76e4ca9e0b1723c64dd54db4b72e5061e0bd1f28b33d5068a4ddf740fa38fec4ee89d15289c9976e4137344ea11babdda91ac5d20d526a221c7a4c576f5379d95bf545af4704227fbb71c4206099df3673fce9eb1b9f6aba2429ca94ba1bd059310268e317e6b3a819dc25495c49010433fe53494ab2db8ff60e4cc3b,
  0x7dfdc43c0620d845a0fa27435ac334315ca0d4f7b897e87e3ae607c1e3cf549ea81975fc7b1405c8701f760b6c950c9cb16c2399fda5a1fbb4062afd01bc7c25ca24832fb5e3bb6615cc484bbb14b134493dc1ce2cb8190064e39f243b77bb964cd76dce7467cd197e12dcf00a6d12d7f08ae03e87064b28dc6c842ad953b87edcff75dbf7,
  0xd18623b45f258bd3e9e18b92e9daeacaeb4ee137049a769e26a58db2af6d542fb319e0eddb61d7dd0de693c99309558cc87ee3082d3b8d7d8e2dc4515ab9f2200ed1dc2aa33ba46201ce5dd8e24f49ead6d6efa74984d49389c776a27fe84f26418926e6e5f3882ab04fbf69483b46cad57eb16f99c3c2a8ed26f548359fac2033bf8c0e3a,
  0x2ab3f641151b505f7734cf138d893c658977621bfc659705dd39009e2fa34b4ae6d2e2718fe7b202c26f039c176f23ddd2b95475eafafb45d8b4e9f00875b94baa0ea8892b2022f2cd168c1fa3d738a9d73b037101080cf349e1081eaf29b8bd27444a6f2a48dea64a3cd3978a798dee3867e624ce4d36145428322ded74eb66c42f1b2ff3,
  0xf52ae647a19a0020de19fb4c5314de697d9abf0fa1cf98937bf4175311f9bb1c5a67aa5148f5c1a87751aac4baa0cc02fd214444e5e0040067dc7d9530f824a1a0809b0fb180ac1c826451866b43d6a6ff6bf2a5776bdb55b876c99cf21a90933fa1ce44072c0937de0c61c82da8f0bba974dfdd2074fe43f4b09dca5942d7f190ff6a4cfb,
  0x7bfab139143bb779fc0da7bbe1ab906e944b6f407522afc71dc5c2106b4be3a0318229c3798ee89aa93989017ca137384a0ce379e786bcd11df4437fb0497a2e94d8ac611f0e7d11c7ea79026bc4ba67909490e68c9403ca02708eb4707fb0d959ade591918d420425db397ebad718f6ffc897ade27871b2334fee97ba02f11f1d31c9f70c,
  0x91b6ac7e5922f983d7f667396816b089ca98cd67c990303af2bae82e242063c5b059b95d155e6a93f92a3c4e9bd41a5feb9256ec334b692262829a158ad779d624e4666a4eeb51b6181af5e172da70dcb4271eac718cebfa83735e6261ef29511d02ca04ea1641d1211ecbb6ea3b9de358783328827d77ad01452f57b4d69371fd80edb768,
  0xff2cd1864db67f3133d509046c6e1d8ba4f2025b779e132e146964f2a30ea61b5cb59379c6d07af39a230a6509915e7de9e196e3265cde14c263a4a471e5d675082db9223ee789b70a95476451656fb6c1b8af0b6b2c171de38c545babc9eca984b98535ac11291890dc1e501c457cbfc6ee36f612ec6f67a0cf295f2d6a1ce7292a679f18,
  0x8b72e85fdaec2dd922ed39bede083c83f0a67086d4e80e9f4b8d9b553256b6d9bd399de1ec2160a037ed9d6c936622bdec431da350395b827a691f009436b951acf25017f655c5cd7a9e4d6dce230522f8f798b3b0c05a6c4bcef79f9a0ba969a743c94ef6e4c7a3612381937916da79f908a8cd4c14abf13e1038771aff0ed4146b4608aa,
  0x3d47974bb893ddcbd7f7e96b03ed4a79d89be8481366fa40acaa79315b2c52dd5f407b497bf7032a56829a895214b902225cd3a28e1b481396a09532c9e7bcba5fd43039d9a58e488f42cb18efcf5ac52f71c7430099d2ebe55892cedaa7ab481e4aa26012393d6a57b04f384f369309498f2c3e60d08f3330f4934072af4f77f71306de04,
  0xeea1affab3a59c7ec8ad9c169194b96e47b2fe3a0973621ed5a24ac53cc88319d9e699945f30ed63cf13c655c8c75fb95e4fe2fbb3478beed8c3f70c68fa14667146a0666bdeaaf0c18bdde1c1d0d7e962c0bc8ef065cf39546175b7e76e3d0cb648136aba5e4269530d62bbb218836c40fc018fa010bb454c74be5391bf225c3b62601aa0,
  0xe2738983a3c46acf3a3b98ca70e5fe71ad0b2b4cc60eb73e207052982e39cc72fe99087cfa46054630bd20693b7e648390ce815251b113ff5b4e73ec4b9adde88fce575f6f5ae5bcda7ce16a7f0809b06f8e447236bc9866affbc1dd81401ee1159a2e0424d30a55f0006d53d27b739e235b0ff5d85a06a002e774f956166cd3eebba6964f,
  0xd9e50e98e70ff6a0d5ee273ca0ff81f9c0f6a7791f9f7f6a7b979a8414e182b7fc6c1385d06725a3570d5369e66b36e425e233c79015673aefe6723edfad11512e98c7791859197ad2bbfa1046ec07eb3878699c9af91511cdb1a9588396055c71ab00fe2b2661b3366508ab211baa443a638dbd54a80f148f73de3299ec9a6fe3c42163ad,
  0x560255363eb47fd30718c5db40b2e7aa81924c2702383d650fc8fb668722d1c607f64643fbadd04edbdee34c9d223c5230ab5eee750b2675163f94b3a5594dd44ab084b03585a554bde71bf65d8253f2a99015525c8ff4e7a7e0c15831e2e27dc65c580836bf60d52622575115bb2be6b07b196aa67d5e266a97717c25695c178234be1f0a,
  0x08c1d4250c6d40bbdb7ee31efa3795d97124515610b51d4fa3c5a4f61fa4480f5b364a3a9dbcf9c28faa2c284909f60e0ffa290bd395675742ddf94cfa4b087f9526c02fd013d68df79f1b491ee9d1ee3f2255d857c8015f03e049ed903f9468867732a7cc0de833e73c7e6731605fd694fa4236237740666a8664c85503520a9f98293b15,
  0x3b4d0693362b02ee4870cc21b325d766a3c278a445800a686d046b1f785ff7b0fbc24de5160ce8e7dbddba39c4575028efe328c76d2e38b60f15f7fbe7f25695a767d66610b88760f3bee800360cf46bce8cf546ad04f881884b7ef21b330162a52438acec78c252ecd43759e9906820d76c3befae0a127c5bd98e3a5caca4612b0c3b94fb,
  0x1909fa9416b6f544e5a21b2d510458522ba01739ca26376316347d5ecab7a2a679e852543cc50294e96e12ca4546a61f024c17cf6f72865650c5bce31034fe050105a230acc01e1f7a2977c9efbf061e00a46554d79845b795f52ca9684d9d51fd97d7c4c7793ce7e4038fdfbe3e0e6ae99cbe7ccfbd2f9eab1dfab32a27273fa8eed9d6ae,
  0x81705f887a1ae3a38f36b6f0fc6ee8105153c9904204b29faef5f81b9428e30e0515e20bbdbda786d493a66f853b8ba80c745de208df353dcd5049d004b3d4b0586bb0e04e2d3bb8355ac04edbe1b3336b7ffc7a7627296ea5c19c61a5f7d70c5f5166a689ceae226b738ea28b449298b620ce2bd5eb2885ac8feea75b76000b464ec17fb9,
  0x8659157b3830e703f9f419f2f68ecbe644ec2ccc7b001d6b183295b3f520418ce612d70c8eaf8429569b1fe0b6a342dbdb88d5855b780621db2b7d477ee47435f6f30f2c1deeaed4c269653eecb298e1628ab921412358273d163273e52528a31d9fb4bc0a269b63b9ef2cad61ce849f9dfba958b88530adf3ad92cc494c34b10dbfb1a6ab,
  0x164566209db9027df7aa8f1368d4abb923cceb8e4086317739d0da14bd5e80b6210b54192431cbb57609e597c488a918166d6da61a1a5876022773c9dc1bcd0fbebc0e95a4007687a1b33526799c76d6642b37eccc0fb52559cea7f04560e01be9b93900dc683e9158864234eec2e8dab71d24fa6a4aa9c77b17dcc8d9fffc86bf81a48286,
  0xb4c098201635a9b2dff35a0ecf8c0ae30656485dcee28f977e9e19a123982e6f86eddb91ccf829bff12c70b48404fd213bf4f7826eb59cd05ede8cb552afcdc4345eb72efde61e7778e56fa57c984ebc11ff03b059c376f61451a15e207fceaa527e6ecba8e8ef524a38f238fb4edc9cd1dcb7f9f9431f561718210eeeca9e8a0100bccd66,
  0x6661eef9048406f48a8b0a36a68fd1fa135c83d26c4cdd142dff07d00b8d38c7d7bf7d47fb2791df5d3504736f25ea1fb302f89e52ceb8fc4b78a43a362a04e27bfcd74037b2c127d6572b11249bc36d9330841eac474c16a676755aa9b91215e1a2ccf3b1c3c9b1c9499086142a69c03e3ebb65699e9a5419cd19a9105673bb01d320a8e2,
  0xbef0db2bc7333530f1fb086107195e766219154dc752cdb73ad5c428aedd6422ab0fdf19d11d68cddc075c79ad8cf11e9e3d47a72c23dd1b498caa3b6d8aa390176c5c05865333480720a6fe72d0905982b848589d8717c22129738c2b46b7e2c11069a85cc1fea72dce45850ab5d0ce0ea1b0343655650a070b593d2124f57303dee7fa77,
  0x88e20a8aa811e18e0627c78a1d84d705ad7be473a5e3645a6d84fad335694497297dfd9d305f7b5face0ebbc8146c0c3c8bf031cf9e1353ba32806dbd19dde4e6cf801a476cf9889503ff3abe9dd87bfd2d1ceef989ab30245752a8a97aaea5d74db512637c0d760b3797a11d27bd7adc7fe3b7d919fbc69467ddd3b0f2c8b0c94c5d27e48,
  0xc751e187c8b89d7c96a9b2f2e23d16ce1ed878a69edded1468501c69b2069893b3ccf9c1db7acad3a5e80636a1700a1a9250a0b499525e6791a3cf95dfc5a1c4b88737c6ff2bd9d294e395a0a073699b7a1e28f2c4413ed27671df952aa95e7a3d9fc6284cba8ec2f6832d98506d6b3423424a3db7a716db1b0dbd679370a449f2ec1cf951,
  0x2142476f324de14fd33cccd330875e11069fc8025ede3a793d3a99b1bb57e16d0ac90185d261ea84900a3f9c5255b597732f7b9a4833687e551e3c8c535c1f1da1de1a866780557d6d23a47a9fa10258e04cc09b362014b309a94910650c0cace3e45eab57212e37a47532d2bbea33fcf2b44fbc5349ff8fced08df2fc5cc67432f2d2ace2,
  0x5fbe9ffa6d156e02887c76c3a8a0f541c55c7c8dae2b13fdfe1089c3b670a1ff5b8c2f2e6fc71d87cf18c0b1529a6374cc8c5f5f4bfd63986d4870752fe70c3f215002d7abcbd01b1a5e1c9ff059669daaa5e52c3b58c9c68482841eabc07d92116da5a82fb00a70346ff993b794e18347f29c7e6d867ee868f185f0879fb268614624d2c1,
  0x118ac55517be70c9d7adbeee1001344ad8c957544d34a6395a0e2a0a20ef9b8a7ef03b64b15213761c7a5a579c80fee7bf054e58a4fc58d7299f8cca17a70d54efca01765be91c44ea4185244db884e24d60bb05e220ca4e3a08eecf63ef6a49ab9743ca77678208e6ff8a56af015f15c557aca6f61fee5654c21d8cf8fec91d4536e5fe0b,
  0xa4aa79a3bc0f1ca4aca6a80373d846dacdb673a9b60c11fb37a050a4f7d5eaeb994da9af29e7b9dc2d6b59ebea4d4d8bea647ed576c164e43386f8913d63de01a02f86ff229677cdd3b4259f2e6fa024885d1bda70419b1d015d17167856aa77bac41bf27a0383089f4a9ecde07758d0c083ad4d12c2331866d8055f22bde9c8390303a5c6,
  0x0414b576d18a3fabd090c1fb83cd8d73e713d0d0dfcca56fbc79970e4522977daf7a5d9fc722ecc5e92a0a3e3663b36cf5f8e08e474b9f75a18ea94c46a91d92c73004183ca45c12eb8bfa8c048da1612fe2da536a4f62fb8d66767e86d2079a6fd21ab24e98a367d394a063211582cae22d725d5b6213ee16fb55bba9a39f20d7c9383130,
  0xcdcbff1b37b5ae6e1d36a147aec53d059da12c028fe7f11368542ff3faccfc00cfc25325d7fe9336d35fd1bf2007ddff4a9447ef336053db7932b2c425e75a16cc9711717445014302e965a6c6232b2f5a4fcc9077ce05cae5e53e3216e6c85b96530eec3159ba53dd8bf3792aca5d6ca67b15eac09a6ef9ad1ce9a5e25161f3cc5b12de47,
  0xdc848325e34d6310b8b7e026b3adbf2d83ea4cf9783729c6dea999e89ad0137eba3aa5db35ea72a40ca95a1903623d42448c017d799af85b380a9fb2389548042a0e9e3ed67300fc7fe0d74f849b00a8b39ea964dcdb332b5aa66387214fdf6593c981b1241f2631641afeda46055b129b677aebfe9e5bc53c4411f0247b66b49155523015,
  0x4c98acc90b27ab49e32a68f87316cdcc0768b7b61015c2edde769bdd793067a381ee9488676a8b0af9306e34eb693e26f26d02d73d4908e0d68d6ffa1eed19afd8c92551e6918c3db4d5a26f21430881d9525a545cb9ac52da7f58299c8717ee1bfb5c15bc55188d0776ed66f55dd7c0a19057b33ed3d0451f3445e15f7f49f66db6c12f4e,
  0x0d89bf26fb8955566feacb5a868698a2318b39ffee8a8fd7e9dcbee292f412d845bbbe136eda2777ae2105d29354a1858e46ddaf44d76e94dec2720448ca5b9b6e659046c69fe6f9322a952f6174bb6e272250abc8b041888d3e8c7294010036d0f630deddaecddbf458e68609ba4b34b900d97987ca9a0068cf3918cc0f6ded38ceb6fbfe,
  0x972f268ec841a36236f528f01b1c5f80769c752859423cbd6c3ebd6db711087a0858f21d55f931f908bbe4777ed2affa5581baa2f4a1dd1a5e7bd79cd02143b312b67630b9a3b923fc2464525cfcab57635ed7a71126ea7e2aafc4d8e0d2b08e8397572f1f18e6fb6eb15a9a7a8463cb5ee918f8f1b3160be48c1fa583252c964d696d8c61,
  0x35d6f984e7f6cffaf50df0f1ef5e914f4478b00d127a5a0a8482be41c2484fca143de276f382185f6d7f1a8d0d5563aa7758be9ca2a415762d4f33fa7fd6e3e985bdf7d987062392dcc460b6bab205a111443ade2d8f329f169b0312a9e340483f2ba5b852803166e73bb0e3d9ff933734ee549a36aaa6fd4b244e9eb2abd99fa5e467e31d,
  0x8b70ca580c0c356d6997d1dcf7193f050278f45fb069a9fcc3bff365bc988f673afe6bf298c82677004ded8dd55798b8874f6711bfd6752c39d3d4b72ba7b8bfa7d040e42f9c01ce285dac3ade6682d7c6a2b1c371abfec48d17ca329cfca49170f3ea8252aac332130606a0c482edceff921b91f40f8c2a97e287ddfcd3b4dab655a9f6b0,
  0xb8fb7954827996f37b8ce10fca4ca73bb8ac523cb0813c70880e3e3cac7bc7fabca737564680b0203afa4aeb688e8ff9c5f24d4a4f935084c9cb0d6c11f5510fbc32a48d332be36e0c5d7335d3f7618f8a4cdbfde3bfcd7c2abd42c240cb04ed08bbc7d0945d772f84dcff89ff399d5c5d1e16febced5d31dfdfcde5d10b2c835f9de4acb6,
  0x2ca6fa4a0d16d22094b54dd64755b465903d89981abfd5bb3ecedbf3762b04a1d1f9d80392af50736d430e85345b6817d81d26e417e5b7a7642769f6a3958fb881176fbf7b02929e74607c78c004948cd28cd1c3ec07cb35aa474b01dc14c0bab61ee583eef48112eb9c2d584c1fd83e150e78b427f31ec4bc8c20c73e55db039e321444fd,
  0xd6dcaf03c02d330af42714dfa247481b69c3680d1daa0392079f9fe60f95dccb290f5051b70485e64854199055cbc239fd25f94b7c6b763355b838d63b2e0be095e2444d2eca4816554a31ed7b00be1d1f44dc15d2a7abae67e11b52d4c5ca298e87474f0a8c35e8345b75f3decc6b9ca76fbf127d6271049f66134a1993434c684cf0f6ab,
  0x0bfbc1768f8fd903a6dcad268e6a5a0f3c4f079cd8df97b81ce144d4cc980afcfd3a51a3ef47add8fd85bae8abe1a6abd4c99e5e5ef6e294209dc91339a0a2e98c79a6b2fd789a9e97473bb6c9d1ee6481e32c404593484c6fb4ac4f01a06e360d86f96abc24c40a775194fd1258b9daa08f91328a7fc106d240bb1c69c42d9697725cf202,
  0x5d86c1f4341754d40027b26a11f939f59e414c712d7ec381322091f87b0952bc509d36d98446a736fd935c18ba1bbe5081fc7f30e72c08e3ab1b8672165c728399c48e215b46f6a964e03beeff07e20470886ada0b3df1fa482af11e32c24e332c61bcf1a58de115f1403386aa19f63bdbc819e8af8edbec6cb9dcb5edf46b7534684eb0d1,
  0x923a2d65b18fde916f17949a9617eefef70f3ba14264b4e2ac2334765426f421bde18fe68489919e319db891dfed7687e1c9086d2d160d8c130170e7e3e6c4dee7be58c8e34f8854f929e25bd3c0aa65105a673e0f5c6453c6eb2dbd30a295cde0d8add11bdf6e667c902a6d5f021eaa4ba9054f52a1bf488192966feb92e75a6742ffc50a,
  0x677117cf580eafeb581afeb6beb42d9f4a621e2158ff9984fc3799bb257b62d18ea49ec516bbfbaee40b4e00b54c8fe09545cc315abb5cc7472c17cc288af7062f5927af98798206e720201242247a7f2dc36a02f7ac9f68ff023dc54e5d1b54c5c4ab78a1ea81c29afd7ddadc3a302c51b2032b1549cdd7f106e86322384f09ac9c60cac1,
  0xa78093449ac6c055d0b925c2bb4c0518ae59e1a714139622455c8600970d7034b2e42258e0e505ddc3085aa45763ca120ef349bcf101ce5b679baf88622c02a6af10ef26eb35de69d28a77e4d20b17becc48e80598d72fcfcfdf906f7965f2f938620dbf1f5be8dc1e74f13cbbec5b75f03e69c5f2de15e5e031ce94b50239698a270e98f5,
  0xc62784da4be586e87e3891cfda8a39212e09c7e0f2dc0434393b97f43505c75393693f4663b841684d5ce32760d43e76c060034d815495be8103a9b46f0292a90bd53e2a4e05601e8099dd79b578ec7c3e9aa125dc78aa9f2cbf6c7528afb116d375fbd78f7649c42f11a9cc6d6a8debce404ac0bcef4dd7de2f1dc500795576eb7879423d,
  0x732ff97b6f2604abc9451df2af9bd75c99adb3520c7edaf8335719759497bd2e9cd679dad8190497df922cb404bf3a1dd6a45963fe7e150aa588e3b050ae226c1900da27b0982eb0b57b805ea44243252b33b1f96943dd1964cf545380a3211e0e7cdadf5120965f51e0a696afe6d5027719e8c86b02e47953e9affb1fc00570599e42da04,
  0x586162e3b5a7a8d57c901060527780e7435643754d110bc21064c436ac331a461eb0e81e9a6b88456892459a2b6573dc9922e4104b7e309d4c455f7aa7154e7c55b2a0c3b231fb407fcdf006a6f177ccf0e7c3d63d1b199b8e260826d436c98b660f684e1aec69fad636189fe4a217e7adaddf65d36c53ddef5d032afd6ba4c8197f911dad,
  0xf2c13b095e81763216188ea0892769028135fe4f2d1a0f2e0866a8f401f387ec7eb827245fde8d71bf326a7e88c60548719938458da628f9f969a1c6f7fcf376e260392b335574a593aa50016ec5fe8a021d64be61a9085b62282e99aeed29269a7c62d17f0cecaffc10350117fc024dff8bb596f002093cf5718260ef4e04e95d63c38975,
  0x8259e46a690a303c68011fa50ab9e0b67712d58fdc3f8cb200d472a030bb8ba7d7bd838d2a6b677f17764f2727821d69c0c60c819827e9f1acbf0d7d34f2fa58c2cc490a95872eff01054690bb6a7d5301f2cc05820c671b20df9d6384ea3102990c68fefe81dd788cf74473924714d0b4c0b1d934ddb00a59ad47692320de49543a416049,
  0xf625b5fe35d62a3e134531180f7d7268497be880a3d72c18a6c7287b1261271150a0a48a537889566baf9813cb268b461d6767ae22db3f001dab58723d5676f14d730c2bb738bb0a675feb92353ba835e809398d3c6058c9b04ee3d6ff55efee18e70516dd0bb35d2682a9a5b41f25481a4b494197a9e997b6239edf6c98e20e4e4c4e540f,
  0x91927e1ded2470f465417488d4857e425a35aeed8275f14ebd37d76c863f4aa78ce5f3da3b31ba4158767f7555acdbd9b0e7a381c0b2b656152830b7d9778e496aa32f40e5c147b641eaf7a2e63717b9d19bebcaf418e84376a1934947c4fabf4315189542565db7a3efc28d7196112d04c3a9cdf4f64699b9b3309d1e514a3573213aae10,
  0x0157fd9e399a677f394de61731e706974082468fb542fe427695a63762ad9639b6cc178ddc5376ccdbcf76b6938de42f6e53a76b2e9df8a2e4578eec1b6784269276efc96bededb4bff64aef1cb0d31487bf961d2327bf721d4a78f8205ec0ed5717779d78e5a1b4f4789919e650c8c950039d7ce9c1c57d6059cc66c352429e30e1fe8a6f,
  0x0c4120e44b9f98032b50cb1e2f1204c3fc04e3532c6692f35e778aeeec1e438d72ad92f26e1eff35fcad0e89b32522be717f5cf9449cd97d19f633ea1ad95e4ea6b8078dd921749e14bfaa29b5bf459371a252724a049a6b6497c9fb43dd6f75afbe8b83751e3b8af23fb752169908702303f03ce0abbd31df00e82abbb2624b22714a5747,
  0xf317d325e097319806adb545cdc0ebe4ca28f416c5f699b56a743c2bde3947a3479221a82867157441071b6f9fcc6876a67469819c007bb3d9489cc17cec4179d651b5d245af0bc6ae967ffe7d352981d76f48ec02bbbf013bb738a2d3aa15549bece144f379743dc5e6c926975f833f0b61ab7900569293af68dcc7f805ddc164615b60b8,
  0x1caf9379f5d05057a27d9a63c949dd11d08857cdbd2f87b233a4e3d1095f41f413aaa9a40f6c313ab40e4d572e4972189e7110216fd60e046abd2ffe327c95f942f17c9781817c63f6d27185332f1558bff9492587e0e1d10e308f33ba23d404c792a6c880b1af7716098eda9db70a5b519ca9ca81fc1d91f5e5ef25590a086f0875d1ba48,
  0x35465cae1220505cffda9537e620a1edcc20621f2ec7621fcc728880a51c7d12b206b1c43d97e6f7e20b46ecc833663440bdc9141ded0d25796341d20335312b4ea57bdfa42d4b3b99e908e217dffb898e60f6ef7982ade0a59f92d4a82dcacdab1f387ee06b84997f3669e0e1c147e02d2b4a5e39b41000e64b115420907a333fee5f4733,
  0x2fb344308d6a74e2265f764f78016aee00cdd73eab18071633deb2b436a6ddf451e5d798f09060abf208b5624085b8060df957b4737258ee6cdb796c4a3b294ee2911b4b3dd1f4aba77dadfa9a407bf9101d52ffcd6debc2262a809346f018d35f7f7cc421e4749048554ff3eaa5e5d3f61b7020bcb5a8dea994c9deaeff764e93dbbb4c57,
  0x6657535cb2354d6ffcefe66a1757b13851b4b1ac4af5afbb9bc2b1743177c18de159b038b49daa118a175833d21b6fda8ab0c8177e878d0509e7bd464b692a4dae60509e092e49e530ca4f01dfc69bfe882f40587249f0b8e54db3daf727e1680491c10ccfa2ce941f5c401ca2c9ed91f7457b2e7b6e34ef14b8ad3ca79fc6b2821543fe4f,
  0xe70dace6a5f9856c27d1a151568b697ab1a83feffd8ecf185395611fa7a17946c6117e3d1f036bbc8609dac4f3b00e3aa3acba7f5cdd76ef10538d307deb2964688aea468187e7cacbdb4c78a498e07fd3383e5873b81bd649617557b68b14925d1e2ff771d29fd7fee521b735b51a43d68c729603ac460fa363cd7273db2a795445d7438c,
  0x7fa6fa40b082a0a1d3cf008b4eb4edc0294cb9f4ec742e71f1b5cf3e2d99a6c0a5d6ea8e4f2618d7adc7396fe39aa72a69735138cf9a75d5346d6e523822688aa048ab2ed52ad78a21daf835d14830d7b5231e1feded41ba89e440d27d8dee77591a13efa4ce30a01d9c24d52c8d2b85eccf1346b776171a0878c5046b1c8b3f2fe3fd5c1e,
  0x8d49d7a7759e7a7c96a17d17431a6e7246a8bc43f6d2ed603ac35211d61584ded4b241fa3ac04a7563284bfcd358e554fb94d5568dd65e46919603472d944de54e0da11b6f75d652e8d3b895005dc47b9d50e108d8a8876699a99d2088dceabcc279c57986ad43fa781d110c08ebe49e6d49ae9e7fb8bfcde3121e03c9e4aa3ee93e959d88,
  0x4210f10351f6d9cd1ccb54a6df064d1695e4b7af9c9d5814f5f8f7a0877795ff86728d757d17ec07fbad0dadf09a898b6ce4464b4dced969b46529097e9be5b712b0006fc08030cd7478e36c48fbd5f3453602412cf7932fcb474c2c785478a9a0702442981531fb652af1044d48142dcc1af78d91c7891a70de8505f762e83349e5632136,
  0xcbe622aa234938fc5373a8297fbd1da933e2865cb720dcb55117ed65aa45ac250c8ab9d26a4681220a5473b49aab3338e36507334aeda3a5970637ceb823cd90fa86c5e6ebf11cac73caf9167d80df1ff302b972236e60fb2b482639c3cc1b22520cd152f36b542e37b3f010f107c8547204004c53593c63796aac017653097df75f885e18,
  0x717d3fd8cb4e16c4842afd19f9acafb7b98f9147630e7121985714660a91482a6b9b37097952de70efb292f892ed7e0034f99e9e18b977e8d300d8b8273023e9149b0917bb2b665604cde2e1fe29690d781ebd10996bad8443bc0484a1a267d1ffd3c4c02d098a6f026467e400e38cbc0a8617c3dc4fd744a79ab89ad034e57e9c25d2499d,
  0x970e5d59abef896e127984557a61dcbe98c7c146f9fce618640cb8278dfb21d10f102cd3384518a6995b6953dd298872dc82b20f6ab20ee972897057f880d8eb95c53c8ab1f35ba8caf4a77d4f02b4f759dc5d31eb55fc1a4b6b07e196440d9f8d99554c32bbe6e957d9cdad37d6052b975ac9f9d08ff601b152f358e94596f2b440b89b5e,
  0xffcb57c9e2d0700ca01385f8fa3658fa8af10abc4c903477be6767aa7603cce34d7db717fb883334017bcca086ff6d2aa3e84c9b09ae01e9692a84ed3374fbdb75a0d7b1a6102d64890141f3609f832623430295099831755c77317d0dd500e0a56248aa0a7788079f3ae2a4c36ec798a833f7c76b2789cb628fcf887e7b95795e89430243,
  0xd678e99e5885429d374031d3b2d82910afd8856c0638263016bb7deddc153d056a410794f8472ccec06f00c4352552707fa5002200c0dfa1e4bc84018748798e5c505fd7c84032abf049d1818caba1243f56d16619fa665c59a96820a9174a1835e248cad8951a380d25bd0e11b21cc5ca84b2954efffcca62a647405df5bb35bb473e766a,
  0xbaa8898579c9629e3af65f1200b17539bc4045d0afc8ab10f6755d3ae2f8c99400f15a50481866f2425b29d6d8ce77d0ce081e3e8926166f6cc97684d2bed7add990b815fb4089fa57dc3b2544432c1605262cb66319da74a200bf7be6320fc95ea177f2e8d1a5e37e41a43c309215577c5552cf637245fb0f9fb945d5afc265436b4d3ad4,
  0x29d62133ce07891806b11b78b843ed833b66ca4ed408fac8e511ac854be1ace71b7c877ce33087238b023e8c7e531f331f0d450f08857c08eaca0c1679121040420b9aecc6c9a57949c35fa8b9497961222c5b6d3e514d0fa26ef188f324cdc027c41c76a2864d0ea022223f21de7ea32aa3750dc5cef41392df81d873a77c2977d6d6d7dd,
  0x96e6037cb4cb61d9b742605e9181e2deccf9615d1b38b0473cfffac2c5747f0639e414020b62ed4c9b3c20ff3a9dac97c009bc383f82b7bd761d4d8d4f773b1c703fcc27b0be03fdbf0043dd14ce85a68fc932ac962726ae233b39aa22bf14281cd776501c7c36fd22d08265d32d19a296acc305369717b9654c39db40f7bbe91773dd02f6,
  0x574045062008b808edd85198a65a83db46f45271e50dd8b2c3da0a3dfb526a473db71a1fdddea587863a7894c1dba3f50b50607128e41ffa8eb3b4249e35b6a930186a9a5986003467f40a123456dedc63c284ad42d2717fd3ab635801cc353e50bd90a50762f6d8d4720080f13278d282b18c6c87452edf541a6cae4c14a734245d7141d9,
  0x7ecbe972ebd8f2614c478ed7c1baf3479aad80ad7e09dd98b307aec6126067fd9b1962de03612ad88056b87e49031a2c1b42340d602238cad6295cdf9781c169b2fd1dee13b7c484af19ab2a49381b18d06a0c377e31f87a3063e1e506bd567330044fcd8fe487db960aadd7f94d3da4d610dc84f1f0106bce8b71d9145e091e4239e9b98e,
  0x4ba2e85edee627cf55cb4379fdf24eba7dd6b3bf3b06cd9322ee8c82fc7736a87b641290c85f452169f03407a6c50e190e7dc12cca7c8d4b65bab03f927ddd19b3fa55b8693278b6f643839edcb2886ead4fdba7d1e4aa9fc3f2bfd255aa8ee66db861100dc9dfb15a68a0ccfe03f63a72bf48a904ffc07432a6b48777d5f28b32a3e6b4a2,
  0xd53c61ea2f648129dde0a447c159dfa2c5f685d15c461a7eb1b17c37e1b6734ddbc15945912c17181a692694730290c2846766322e14a65c4a1a4bbd06055272084627afa62ff39b434e46d31c319d98abedaa193558c0ba75eadca1111e3c0730d0ceb58793687cf3a7d32a5072259ed84dd0b2e25a04d53c291c5f3e8706be197c7160e5,
  0xc65c9777939970c2af02dc7452c63379be1a7d9bfda12853f396d23667d049e8b5b7b08878e1458e2e84a3a7deb9035f66da0d7572be73b585d0e3cb6ff958f6d19b7a586f8e3b4dd43d3b4e2e5b69387eee95985c67dbaeb22f4a83ac488ecb165bd6e1ea67d48b61a4ae575bc2915d53afbf6b9d5678fc3fcccb90c956168afda3cbdf3b,
  0x56f22e15a65c6013f44449dd7e5219cad07bbba64937c5c8b23b51b9df62a40975c8c899e18a64582046204a453b7f1e8533816575f497cadfdaa49f76355d7b60732eeed137a8b8e9f8e303f4257a4b78c8dad27c5377b23d41eb1442420f657e05a0334357c2c24f2773c4bef13a16bf89c9e628c3915fbc9dfb0f194c5a1c3eacdd251b,
  0x2846489c0fe116e15538067d4befdc1a9003e9236ef59c5f1a95e1b97699cd8cc07f8000ed439bae8d986043d84915dedb0ac458a1cbc7ec2250ba2c4204c11c7bfda005d283df28874b456d57f78a9f07f51f2282f3636caef3448ce122e6d78e8e32b7780592d9529fac81370fb7c83589f0f4a4449bb3f7eafb41a50c43c35ae2d6cd29,
  0xab2d8752efeb27a0c07adb6b92a4b98d33bbab2d930b05261b055ce2bcdc09f1978baed3138b0eb935453433ee45ee13f49d8fc1783a266509f2dd351153b91cee9c26813696fa68ea9eaea4b70a22f7522d636ed5f3f64f86fae70ab3039659e7547ebaed9e2f670be289c3ed6f9f6d3155e3cd37f9e6826e9aa4314810f60b6d6ad64e13,
  0xe05167b7e1f0d9476907cdd29f96f33fc74394a8d3e10e0285c1e51e3adf2d78bd62e1795146c2bb301f151025a5a874cb974c3cc09712a430f8b4a7efe41f9654c1594f6b8ea9bb991343d16536acaeebb4230e622a4869c66bb3c9e92b235b4062e8b026cd676d92699c8d914fcea92745beed827d9f502a05250f7da6718bd71ba8028d,
  0xe10d4b37747f6d55b591e9cb159bc2514f1bb3f11f4ef3c7d8019dab7d5a9bb63c2dbc64a7b491194d6c6177a1939c4588574d93091208f8c6abb63e7e252aebcfa36ea9144bd4a3f750d14139be343b9280617a7105869a3228a30337b7e6965d73f410de157b43ad3b7ce846f24b19030bfd0cf65b3f52ba996bf96d3eb95da609293c00,
  0x50b661026de9153999e98f9122e75a2564e5d2cd5c31d53db8f6a062f11cdda48990060fa63555e0804d7a2c2c92884672a1433c9d519525524390338a6fe7352d9490cb2c5b6e6018a9b26983f1281ab145fbff12da44370127236fd8fec18ce689f6f57455ff8ae493fb58277d529cb1562307ee34154e33c7e50a99599926755ba92f10,
  0x8f679cd75454998cd2a745012ef698fe58e31af98b3d34baf2bfcc2981159291067f64f0c0ec3ae432af4c56a3f17ca08f7dfccb0b8def783540706e2c6fc3570acd580b1ae91cf0fe2190e7a37c71f8686bf9f8f6402790f991d3880e24d23e2cc14e45b56a12e17f7fe23442da1f99e6b90f09d473ae09492a2289db7c9d656565db7b07,
  0x53d4cb3dfd3631ae42340a2af7e0dfc0f0ba863cadb6121f189ac759510e1d6b40f354b4f71c4496c9bec5cb91e690c34b589b8acea0b13b0d545ee3f93b98c814fd88656bdc12325f9bd40e253e0f32f7679f23d7bdbf345eaf3c012448100974445d260bb1a4df76aee500de3f6a10f4ca427281e0e7bf97bd0859683b4a5110633abcb8,
  0x90a896489d83cf41d32a22f17cb683b6713cc683825691344c911b3f3c1e399d1499934af45031e159b0513ff5a1a20245dd0e37aafc7a678a78aedb7de0551af0067977a6643517420ec09140fb36fe80ea81d02134c9e0caf6a40991754cc4f2f4b2064ef39de4cacd3780eeabe488d14fcdc52afbe70ca07911f79e22575e8aa6056acb,
  0xa38308a4e69145aa534fd19d3200641411353de4573c9f9f7e52f0ccff2d94f95b5160e7585061613aa3dddc5b66e7103e8f7e2da86d1c707f408c38020def1e90a241739bd27430b77874bad8b70d8b7549bd3e1d50811a16f2985ddc68ef1572564caa1817b4d38b86f61d5d3030bd548aa5cf84cadede1c5e5c1f133276b2d1d9a44fdd,
  0xf46e1c98c9f2a0fb744eb9d4b02cde8b6b778eaaf3362e2da9ddc2e89153769be66b57845332977bab17148bab863839bc00b427ac983f773a0c10a1c00948ce18d7b9b1eec6ab81c513c1481ae0da5053c65e44e3e73f6089452d3644fc9a88b05c4f7218d5eb612d25a3c26b38ea9fac060759efec78ad87c89f627011b3bd84cb4ae22a,
  0x25c8687a49e72aadaa5db2dbcde41db07520af66c9129e6a2d605a7a367ba868caccc5ffea5328ae9b9faa02233c204659de4539cbe857f588392749404aacf53f837d32ed24398feb7e248a77307902a70904dc0cf4556dbbf0ca273fdc257f0fc812854a02b4c4c676b5e6863a74453b56e3d3f58c1d4ef8e352c86271101622b7694efd,
  0x414e6b0c60800e5a26d1db01077c6cc08460067df47a73d82ca25b6e386399dc2db60e2754b1e608169b2875207c34d458dcaf819b4583008f56e5fef7e1bb3cb91f2b86641c0bc075028dad2ecf9f0f3a19ef033de712b219fc20af92dfd6a42c1e26f6ad762b3fb9f45eb809d22dbd67a7e5ef5afd7183f3ec0ddb3f849f597ce9791dd1,
  0xaebec889d1605124b1ad6350237abb777bbca149dae2a01539628d808a9a55da8f184a17c3f8ab88ea6ee1de89b536f6be7525793e1f015493ea272e04ce702afa586702ab3d1c9edd4ac491c80d49a9f97fe6ccac1117ecc2b5962b346cd34cca01184b8ef202ba023ba79dd70564934e7cf16aa94a6c3353acc1da1ea6f1b382b4aa091a,
  0x00cf730549dbbd295332da15240e62f9ad12355e4bbdfc02696169b5510196e8794a2d06cbd1af0b10d981824bd80513c6a48cb17a68ad54a86e484988bff042942b672a07fa5cf3e51703ba37f92d09255c2792cfb7f526423bdb2fbe27ab25372b40e4bac319264b516a6fc2c99ebaacf422d02dc9aaa0713bd820fa065385e75a65148f,
  0x6f7b0f4cf49c9121c920eb6138692fb5b237572a5155d75af5d2a4e60bb48ea821871a5829e56bfbde5eb1520f2793f043bb22abd842ea0d9b11aacdd52fe3cf1356fb2c484b86fe40bda47e68574662fe63d1e830aacfade90ded63e07f0fc5cc59228d73bd86f69123cba9e16541b452e30040f0ac395bed7802bc1ddef089fe4b25f205,
  0x9ac18c7fa80fb3746e72901a7706bcf9aa0ab881f2bcf08772ec5461c7b18aeadd1d0d8a3b7a093b7cc46fb64097c747d019089bb7786b8f54526c81c3eec6e76c21514252bfeb665455e70b0a89b6aa3dadfaa1c9e27288014670034b97c3e5320e5c1c762b1c0d508466984b70f520ada0f3aba67e1f7e0f50df8b8309d31e534bf26ee1,
  0xe723078566d2984e7218e636188bd73b5da848f4eb4cd4af1a7524f57ce73adbfce447b6dd228c600862d48763f76f31e184ed0c4aff5251921cf7a21d9aace26e26adb3a16301ff297b55e256ce6e02a69c989969bb0b2b69157d333bb55380e4d8fd3028059f2a6490cd2910b31d0d198830fe17012d8366d369e16219747fc9e82ff4e3,
  0x8633d4606b5394d99012487c5b4150726b703752d034aab3af837087a9814238a7b4d6530bbf7ae1b96c0bccb6da1090af440bf78104d2c291c2078d13176a6eeb936e02fca5b78fabd5403fac12318fc1401d524f579e1d92180ff6fb36062ee813a4d1538f55b5a249e8a68ce81a99f924b7f64e4326a5e5d9b30d5928541f0bb5854b44,
  0xff2caa49a9011957bd7ffbb34ef78f0bb4dbeb94d3c732516e03b6755b2540b390557387fc5fdfbad41c493c69704fe9b305243923363fcb0a4caacf5b1471952faf6b2100f4f67ed7dfa3bafaf2ef2c7577f6d10cfaca94687799747747bbc03ef6ea5bba29e56882ecd59c0b3d13a456149a6bdcdbb5902118da1882e19b6db31e14a48b,
  0x582781d5d62df53c810b1ef2ccb61a41dc0dd3feecf77f6528dec2b876feb638b9e4a75a43e715a83e24d140a3c99eca3644a278586fd92092cb474b0369e98a42185de339952b7e0509c299822d18040bd494f0d63e251f5083750aa091e05502417bb9097a4fdd90466b61429e9546905840a06deb0b29b730f88ce513bc86e61d616a17,
  0xed7be98bbc172441542a0020fab2e6f13b97168a98a3b6ec525554b2cb8a040a6e57922556b69019836fb7db0793fae8a75dcf41c0026b1c1926e948d12e4e37109b6a3d2d143ca2073cc7693c855a63c7d5417f1102d9030a90451748db7826fd6fc914be070a9a4fa3586146d7d2a6201fcadcc57f212bf57cbf159574cf684842eb85dd,
  0x778dd184e0a2796fc21dd02fae24899ff921fc740bcdc950daf69df5f376a90f2b047430adec3ec0884726c0c164d8055e8e48daf0324e7c7af25ee86dae216a4385d11b1a424fef51f80e4003dc689783eacb6cc7d58e8e9bbf0d76f6e23211517d984a58dd96288f31ad565410b7440a100481d1c15a5d44d4d860a714ce2a71794b60dd,
  0x830d398839814d0100b69ba856c2c6744d25e0e5432970ad14ca92d27d14b40bdb98107a9f980f2e0879b0bba916c3da1efa20475550874868a8c01bc58a31314fc48cfea890af8a0283154cd14fdb2c1fb2cd2e0b8121b5b4415e758502f45eba1413c2f6a5ccc0b5f2cb3ba799333652257acfb8753a82ab44c803ce910ad6b5b9a7adc4,
  0x7dd5c79ea8630d0fda6a3a5af1c21e846a445b16a29bf9707cc0eb8c054b5568f09f36999e1af39133b5e3c4351173bb719b3b8f674c45703e164d9cb1335bf21003bced289e58da04d027fbd339f46fefb03774612ea9d9799ae15dc8df6021da5b32f3e81a1483f020064b60bd269d6b1c8ace2465f57f2020718fbf21fad2b261db27f1,
  0x5a1d46086005e716ea5671b233e92fc486ae0e2bc03503808e5228013c1d48d4ce1e00759a71cdba16ca97c5262092596c51525875af2e8f38f5c734873f6bf6fc3c550fa1e92ae936a73d4cad241dae77a91b9750f2f250d5437d2265f61e676761e76bc95c419bbc58071128035951c1529138e4164617f692ce8890a21cffa009855f7d,
  0xc6bf1f2885ba49499f1e19144ac213baad57721318919e8694ac3ed42651ac975f93a06205c41cbeeb82332287c7d8d1347ebfb094bd017a49643deb9cbee1cc13685b21d7e569f3eff1175baeacd92d97688e1471beb2e447ceb56ceb494b5531aa9604e8f594e255d0577b4a07f00c119b73ee5e5cca603d770c58025e9e05fbbead00e9,
  0xd8bdc029de0849ef76a74fd63ca80f4411d8a35a0215fc5139922ccdb90821afb8787c71ff253dfa4ed39bea0d628938e15061d75ba5ab255087a8deabc29d182996ad0e19899e8ada3e8a8abd60945336213af5bd32a020fcb5c106e2610197244c2c6024faf1b43dddccd5a79995229661bc736d04b9cb6bb1d5a7f527506fa2009f262b,
  0x3f83032014da8058a35c3ae3464ac4403bf2acb4aa7de50a214ccda5a8ee5d48fa847709cbe775216c31892166b51925bd4e46903f3e9de65a658cada7de96e51e2f7f10ca08706f354bfea845f0a97e9c30764c6161730302db4dada5cbdd193321dda86e84d703c30a46596e9d374ad8d62a63a02288736c9ed25659289681baa128cf6f,
  0xea360919619308206a7a976f604bbc4983bf39369e75fb6c71d123f1a972d9e7d470532c153d2dfa44f40ddddad3534cf2e25c293e5cebc4ddeaf4756e1d20ac3edbde41595c4b4c2cbbf53943951c3f2b225857e94a1c7e63cd6ada231b31f461068c4d728367c3c701d416f3a7f46fc4e0dfbbdd30601b54d149dc2f528bb5297f7220b4,
  0x248917154c8230c296a2cb68b5b9dbde9e98e65f88b0a2d51f8a976962e76ebbf30db6117ccfb8c6cfc590686573b28498ed60761f9f273f2775f1a50687fa8f212b4117a6bf99db04b35a1a850bc178fde7b9a018fafea04833166756d3ad8ad0ba16e05f458cf17a0980df544e75c9893145453a3c72cc173043459cb8e8f1f5f9cb16b4,
  0xe5b3e34dc2d95f13506e3df714724fa420f6ebfe951aa067f7fa3fa61c7b54e839b80456d661b3ceaae6ca53f9be4adb6dff38d8209cee2bccff72a074acf1b18220afbd9a561ba6ee6a7503ae3cb0a86c9126ae535b85383cd54c44b94937fc340cbcb9b96d0b2ae2b436ac222ecc5e10c90b9a9732c2ed3c6c79dd47ff7f9f7f6a4c1da1,
  0xbf3896918006bcf890bd6aaf5bb92319544ffde4277ac322a016154f5a7a2e19215e2e30c2caa6e4860f21ac83e0bcc336ea0559984c502708d38b03504ccbf46db50b64cfd4607c8a117b2e24aa0e726fbe07cf782b318056f453161b3f130dc329cb115189905d41714915c6eee0677aef2cecd5d6e2cd544e4b8fb78af1f928686c9a78,
  0x6560b3772fd09bede4f3ba8a47cd31572aaafc48ca87ed61dee89d53bde150302ec3afa7650e4987de07cd007223955c42d5b412af1d2f30c098a0c4f0fcab13efd46658121db4bfcff37a56f2a82e426bbfaa2cc2fe2097ca9f05a7bd4b5f9997263dc7ed184acf287115c5c227ae4751493250456ccf441fab803f66be66332ec5d4df90,
  0xc4756ea1930535a2b88d8100256a32cae66ac27dd2c7d05af55b1d15e7aa31f03be7b176368cebcc711f45aca3e0de2e16efd1cf2f83e3ca2b7add29804f38b760c1cdc1979d9ec58d28cd11749792766591413cf1ab337df100e92cd007cdec66792a8b7b5fc35f72547b209197fec69c4673924488a9f84ca2105ee6b77b0350c72b3a9d,
  0xcf9187b0923bb80ed280ada255d0e2ecd178eab7824ecc7de3fe47459aa8b9107b59162c0d283ec0d28b937cfe32b09ece8494255931de74c88f1156e49637380b8636b6497e9bac69ab0722f788e434895c438508b4920d2312cbcbc18d5f996172acc0193bec2eec00b5eede1946c0d65a200348ee1588fc65a6e8a488c4890835b0e00b,
  0x421fd630d0681e1cbd18b20ebca6caba0df622bbd4d3ee59b6925c52a951985dd2e72393178dc97adfa111c633a40a548e969b60c794a32c6daf9ca6b03a0e7d2dd4db4f2a01e55e8979c656b3145a5f79a9c406b2e7c8e3ba3ff95984d5f3bdc17ef14abf1e8409207b8529475f38fd8f8035702f2fc6c9d60ed42abb470bb8d49803d2c3,
  0xe4e3be69f14ec10a3cd5101d5ad01078a8364ede946d1fe60bca494c0a14d463604bde63ebc46299daba3eebbcded1bf12a7b1bb8a900d589c6df296b754c0faa5b1823157486c79f590a4dc73f8a3388d5cd54d2e2bf8cc6ad25a4efdfd87c6b040083f459564aec7ea483ad0b8fb3d1d14037ef9dd80a739ab6356b41f201e093ad3a06e,
  0x8c896219ac3885074e9d5b761af1094a8b812f3910bef19d5c615e133c53d9695840556b32e986ce0fc505a11af3dbb2425326489fa7c3d0b1e020069be230a2b02857122095069137cbd7ea22394b4a2a428f9f33eaa7d335a76336bee3fd681ace132408681264ab3f3e9fab31eb8a7fdd9fa43dbee5146600ec5b4fb0e3b450a2e574e9,
  0x78d28b3d5bb2ebebc26ed58e521527175d56e43c9be1aebff0a8c994eb63422c50af90f3d2f7478890294275488ddb8ffde3c760beb4b4e8aa9f6c04256bd8c65df56b23d35660f1ba4aad8b7ba1c64024f3ef494e45814aa823fbb129b1fbad9ffb12f94b562cf7947fefcd764997c8eefd546a67c7c496dfcdc6c2bc9cf0df278bc0ad43,
  0x8469dd9f7307480aaadc3ba9ce26692127274f9a79fcb47c4bdbd81d3ebf973f4585a16dfd9b51d59dd7e246647eae25ac4229930612267d3fb87fffad88ac642cb0bdc345e0ea0dd52a91583c934c0e63f82b9263d9e6577537af3fb2f4b1217183137573b48564826a5f5ef964ea6562512fd028138d3a4e5f766dd5beb014b0d476c911,
  0x4d99ae39df92968a916c5cf8e044c9a90e4b8313dc572dbb713c005b7f7a78c73732cc66868d8ff3579c85c3864e27781b3d5d2fb682b7b0df53b9de59394d7f3a9f796502eea656ce9ff3ddb173f84d47363f497650c98cfb6a08a046323bd4301e1b87e10e850eaac1da3fcb38d06c7882753db0a270621a4406a4ced5c741186b96f73c,
  0xfab095ee62bb6ca6e8cb8f1549e1d0b4005762b83ce4c5e444af1145b79354e482875a123946a8a9f48606946e7881e84743665cda40e4bf717340d859d31fef0d2d97cb568743e62eee1cd362844c80fd1351b58fba49d5298cf7df894d01430121565b70135efbce2b0bddd848117458270d035fe07c74b47597da17bdf4c2ba89f7511b,
  0x773f115f9fcdce007164600ab454cf9f66f6d2eb15d7726f774b041173ec623668d686867782bf75153dead6bc45afd21e7a6735741ce041afaed36d5757cc16dea5dfdbe88dec6804d3703487bda04ef4f53af223145e6bcb40290e2cacc088cbe8853b00a6e110dd9e9ec2b85fcf1cfff10772e5c33f4bc4d45637135552c3c82681bc0c,
  0x530a37cde3836b3e0694054b00e439f186f84160fa169ba517bfcf17a3530e08a5029a51db10815755f3dc8db9103753c041aa26a1ee9be6567b97c7bccfe66666a0fae18a8605c9954a9db4bd0c03d43ff5e6dda96bafd2d49dffad8a60a1edd878ccc1a1364bb7bda4d73309c8c2d5ec0e2b09800121c844d2a76193cafe91edc295c954,
  0xe54aff02f572bdb7263f013de808ab0b873922669c36365f650dea025fa12c24788b27e405d85eb07161147810ac07b1774be18d1af3711f455268233be54b28bbbe1e584ff393da87880b7fa75fd71b2b3eae4aae45ff09eaa75f6075321eb3cd7af409ca7f46c5cd58062ad4bf7c346a29e87d73a4e00b728a6943403d09ca3fcfd6fc84,
  0x15354c5166515612571ce194c0b7a1da3c8931e43d3e9aaa7955abeea12123ecf0573285713db9ece4bc85c17c1ffd22181fdfb266f86864377634a41dda7ff0192b0b1285060f644e8cc45f6311ec8df1ee54f47392f618bcebbe928898e08b505a8cce0738aef07b30e3d180ba060e8892688a06c3a5b0bc0afdddd90d75f3e490b519a6,
  0x129a4e0503a3af762f9e29632957257831aa40f2b3bc6ec5a4b95e7321eb2484607457b180a82349825dbb59d0542b4349a305d8c7918c6f92bda6fbfdb697c5a057ec87fdcead28fcb7223ce4b79b3f26717981273975c705ed8ea20040d90ff9082a3beed23a615626b4fef3e0b70fab980d7d30b8922538a2c399c1ddd3656a0c898efc,
  0xa8ebaa9f3f0373c2b09b49ac642ad025c7ee9143d3ce08cf14806649f95231827f506172ed369cc5b40aac4a77b80ecb6e97fa5adf658a00ddf8aef21c24c24187237e6fdafc5d26275c39a8173f0b0519db847188e91e8b956b713f37e5bbccd652bba41c8b47b4bd837d7cff9e13b12415f71542660a7cf0e01d47b5a5c8379d57b4c081,
  0xc15b02dd5bdba80b59d806bfd86526c505508ccb2377ac05fc8962eccd79362b1ebb5cfe217abf963b146b1fd2bb18416726c7e21200a9d6c9740361bfa5f1ac5488231f601ebc14350d99f3693cd05cb0aaf348c3e74dd6746bd5210a45d704602efa49630fc94872afbd695cc499d986eaf8ac1927fa7554dd6555bf6addf960968f9394,
  0xd4c701f6c04abfcd4aadb8899119df93be46ac7108d6e06a1d125026dfb7d5688f1c725cce7a43fb828ef55d46d3de433b16ab854488f9329894b15e42c4a5c2c2ff4c9ad228163a7501d80df721411eca372bba2a02c8876befa148dd0eb6efb593c6cc4698538e457b3ff7d4479272a36564eb2ccc640918a68c1505b34aee91b2932d11]

/-- fsb/src/pi.bin, bytes 153216-170239 -/
def piRows9 : List Nat := [
  0x8f784600d12602201d82dcc4d0fd66fb66b6081fd2adebbb6995afecbe18193993fb5110749f9e406ecd29f92acb26548725afe4d71c6bec662ea41b1e212727ab91a2893a61cbeef191e3355abed242a61576c69a24f2d2e304c45d690258c412e10aadde6f86edf061f3393b8f4686dc961587460b18aa2dfa6ff3db4a48d428209d7126,
  0xf4d5722878a45bf6b6379ec6c35ed561f9fe9062afa85b460eefa300344fd0489177c19ca5bc54f88213003336731398ff3b6701c8ee90dd8573a617cecbb03a00170c485f0360155169da8fe6385d73fd08f52d2c05a4a9cbc978ee63ba5c35e97d8e10cead183d70431c92fe7a58bda7d8025f557676fba4f4adec7b47c0aacd67ed61c6,
  0xf0f766e6466d63eb36c145d99b9b22904284ed4b5b817a90e7f53122aebeab20c1cd927fe92a1ee2e42ae04bd91210e327a1c7ccbdd599daa66f30c0f1f9e14ca136a346cb3e9be177e98b6addd2a5a8521f4747de0ccc457ebc6064aa6d5e1a9a5d64454c327fc3466904f089222a2ab25923cbf94d6b6d6f2bd07435f004df755f94c2e6,
  0x4c9f073a9da51304753834aa2bfa222eb9969dbb81061f9a3b0637301364414df3c74b5369a17dc8127ce9044d477816e01b430df2c12f28f5a9576325db2608eb93b3e72ea4885664fd45cf58574e93453556269dd39eee349b9b6ce6b180269ea4975ae21e61511f669237c6275b5858dfdf4ace1e4ce44e4398cb7d1a36a52415f39adb,
  0x0ab19c8e7e8a5e47a86f89dc6886992193b6e10ca055650e6df628d774820de0f26d70f9d15b12238964fb7858b91d3ba76aa620572210b3f5b9d3781516a810d2b61d511cd1ee1b4ea289e8db9c821eea128f00095aae5afe5727c478184366d5147912068bccab01bbe15178d34e7392c2c5011d4ab5c669c0cbb9f2dfdefeb216aca8d7,
  0xc645e4a9b9d5911a25756b68956d0c9f7a410131918497ea795aa3d61db4e9ca3d76721ea23108c82ec3cc46a987bcf05dacb2b8ea182443e53c1dbcb7df93ec205d9e4a42b1ca4d7abbd25034b6bbf2b9def42c98c6fb51950ecb57e8cc557004a497467ba2d3c8b3671a4266d128ee6303ce780cef6ba1e9554c9e87df4bd5a60cdce123,
  0xfd06b219d67a77b061bb7bd7caff755a6fc3f9b154b46e2894df5acb1993488db92cf3862fdc969284a103e598f4b0870b6a4901cbc7203744704611434bcbaf13d8d01acec1633fdea466cb6bba78be0208125e08a292a8a1effbd0bf7e18f5b59c04f6afba5fdcf8023a818f87741f13b80db7a87d507302b8cbe8cb54bcc72ff785bb8e,
  0x271bd73f5b2cc0a5df0529395d58a24a1fd306c8f32d7239edb4001b2dde534bf70d24746d48372d0529fc41d12a56a21e520d21b5bf2c90e897e6803d59a796c606a3468a49e542da121da220d5a9e3395dfd6c00c9de1bc16c5787a11ece900e5ec3ba56fda7643cff44eed475de1a99755fea5acf1593e9a6f0a0c12ce4188ac8897fb8,
  0xd59436e432e347cf666399fbeecec83194d46aa87aa0f20d7aff2ae95b2ef185d7931fd657d6c548aa8294b851d8386dfdfbd8b7e97a7addd14a232623a79d90cd85477be3a19d95446c6077f8e6f04400988e0450402458e10cb4be1cf62871bbf0a811ea61ba7d7fc743957c6ef71fed0d9916158ff56377d018b5bc5aa5388a612de78c,
  0xbfff10352859d3250b896c654cd4cb546a61d9a1d33c07f1800f373f725eef9a5f3467f4c37bbffcf69bb01197f7b1f7807412bb808ab8642f95dbf52358f21047725d440ee4ef2019334ed870f9349caed697681aaf86d556ea47e5e04039de0d64340f98a729a6361288af6186f7b27d865e35b463a4548d5449c7951d92b893c7869009,
  0x7fabb56ecfe71f10725b221a3970abb8b1822cdf23238283531cecc09717c07e8fd3d572a3bfbdd5c67ec772e07087c703bea24ab2a7d5c0ca34a18ec6747d99e16b6624f93379bb2b2456f4a5b3ec9c80102c4f4c86508b6af27677ab7cf69d54ec0b15e00f76bf83fb02772b117b95c98582b39f983d863efdfd5e9a00a644a7e24dd230,
  0x49b26f6110e7968b8e2f31ee4ca1f4aff2dcdbab771de2feb32e55ee783ea29eec65f79574622817647feef0c4da61ae191be9aec87555acfa0c4d5e38f39e63c02c4f56e9b7fc24edffccf3b2346652c675e84c31a5c4ae113f1d4cd347d287b16c9c08a0f639ac998e2c064f68881fbb731447f5494fe7dc0ed590c1db4fcc6c9b4068b8,
  0x3290f2879034917671faa635368c70ffd9147d52771488124446d7c3d2e323603478e32be3dcfa90b5f65b27de2554e31b8cbbe26662c4be116aa090fcfbdf9daff66d963b38f0d28c733ce1d1611ac8073ad4c579f189b6a2c990254f8c09e3517bea0ccbd005230490379ed17d80056a719e18e8850b1c26c8e1d2953ddfd3a22768e9b2,
  0x88d57c227b952d768cca96c92ed81698adebc2194e76a72e524c57ff2876856cfcb66a4626b78134c9741ad52bb3bdafd5af7c9fd54e247583b74c06eb3e9812360991a7b66ba70b1a4271b816139d0f9ad26e8c04391932e096f427e360df8f5490f0a8ba32762934efcdd06fbc4e97d07ce650d973018128978dfe4e8652301a8d2a110e,
  0xc114ffef8d6f65fe6c87c49d6c262c2cf9727b413547289fc75103e3893b4fb2de71e7265d67eecf39be87137d4ec3294623ab3cf6c139f2b868ea31116668c76ca659fb72a1ad4532bfd8ae24077daf0d50ccf729b16638638ff4a853e761fdbfd0993ff045e5de1a43e07cacb89da2e18a9b4ba33ccff831e2ae7332b05568e2708c3e6b,
  0x538d601904c53c022bbb6042af7c4676d84d7a03cc159d185a028c17aaabafd67f6e7eddf7323e6a72513ef722fe34935100b2ed1de1fb917086a2ae3a8809ada4b51c5782670ae5e91032277905a868556761f61e183828d11b5a9cc8d615f9e7c9d9e3213c9d0f0dced50e45dea8356b7036b905cf6ba2968b98de2e64486a27c1030b9d,
  0xb563beaff051550315e0875c61774404af4a5191ef6699f21b111174c7856d20a5a510b8ec0dd4240b2228b6431d013ba0d11e55aa4d3cc7951ea25d193fdfa54fec66cf543237c061b7e2a826cf7028c835cbd46bf65c4a4dee3f4eba9011870af002529d9ca45111cde88e6ae3232779767d1fe6ec4703670dfb16548fe585cf824021cb,
  0x638985b391ca21e9a2b57f44bbc05b2a5c46abc628d09afcae84f92e79b49ac4743fc4cba6825ef26710cf5fbe69d043757712e7afba0f294178dd79cb745ab735c15121cefddab891b4b64b58e386023526495cbded2a365452b8dc4afa3d18428554c47afb666116c5d7d604cd008c599a9589454a069301089352d4c30a02c6400b9658,
  0x9cd713f3ccb308d5036e2e240c91056854f6f74b4edfe4c0cd9f6c02964930511a0ba1f6325d057ac459803d1b810b5563b857b803c534cb2e2c4a5385747cabed591e8141910327639d32fee84081620004d731366a7dfd064531feff53a4a9e4bbba4fcdd4d151fedd7f01665f22e6b3cdcf7ba86c663dd0ae5f143d4ea2f9066dfe4f32,
  0x4fd5c96959a44a15ea0ebbbf7fc5f652987af9b0397b963317384d157c529f14aa2575bd7b771680de677f82467d55f74025551d0afdcc3f920d282ee8614fbe6763d71b3d1de2b099a3622ae6a6285d7ae125eb96e45677f4c5c9ff78d54f44b04ec70bb0af75f12e37f2308f26902cbb82a33291972be29f6ccbda1d6d82f7f932c72a7b,
  0x8764712cd35ee252f8373c9b47a1435f4019085a9552b27d7a061aae1415d3f470b0967477943adaf3206bce0bb00762c37921e1559b41e2647cae6aee2c5abde96fd625659a3dfe26cf0c9e3fcc19968c0c49868637c6fd4e1a9e67363f9c7293d0791f536ca6559410457dc286e945816e53985607444adec2a64619fd06860668c7a219,
  0xfa78058dcd7c2f5f3d89335a8391306a327ce2f8707a193dbdd5331423069c48f3ce4f405930fb9d646c0ca7e851dff40c2d7551916e816aa1d73bb7acb3f887e9db2ac8944d6f74a84fb73a0a95a4267b7537b3750f768b0bfdbb46a0c2b42f4a53e6c2eca247698327bf047afc26a42487d6f404087f836eee038062633fd03ee88bfb04,
  0xd6c2193d4946e376d10cb8c4d4c50c7d59bf7e0998520d5644c623172b76f0e38b65ef1d52fa6693d297a486eb0622dbfb1b0b964cf24768d50efbb3fd99400d0e676a221fe2d2f5f10abfc1e275f5bc8209e72b8b16d78e591f2bb5a4860855efdbabc8e228297eeaa654de27fd48304781514941dfcc7c27a305e1d7f1d98c5fa5728892,
  0xa806dcc33c11d9ad58af7856b0cb4246ba332d68afb531c63a61570ed7951d7da89a50d85fd7a6e349b4bf8c0d445b9754288d2f52665e92385d05f454bcec34110884e40fc5ce30f8ebeb29700c2b73c8261c6b023009a6598ad06e5cee34f83f267175e99eb81ab1df4055b237929fe5a83dc5ac1a24e8d303b9f5efa9325ac512197be6,
  0x09e0c9cc84c2a92671887029488db05061db9dfe05bbfb35b641df29a7ed7b5a344c27673727ee09e0dc6f21e8204f3c03e3cde950ac1b76c78c4d596df3f93a23d9906163a23a879c020b5bb2de40193142649f36f176ad9d026b45a643cb2f2d866196e42ac7f0f529dd010cfab0922b39be0350966216093aee3e75ff74cc3c3276ffcc,
  0x94535f5367bebda72ede3824cab478319ec75c80dd569c2870fc034b9e03e1557ec55fc1a5f378a87caeb560fd20e406f83ce2dea43ee29f32917465dabde8b3429d56bc9f3becdf0ef5d1c33ca7457a15a1b6fc75eb1839752e907faa3000b9ad3ffdbbb33ff8215373575716fe7904d29506fd79b13ad8c7effdc4be6b6a68053a6740df,
  0x6338b0d7826735648a986fb1d17335ba996529d22e7af7e86b376af8ad8a95f5a2dbb755beac7b6860467c7707f5ef17bb6fe537983306119400d63185e2e6b1806e4e32d93e71b42c7020f619bf2569176b330fbf82b3986f816ab053007ccbcc01f83f751917caf4cd04f8019f338852e6bacc911e526ab9480d3617035cee06f53d8f0d,
  0xc86e90c481cd2b97ade3f7a6c4a92b56ef057e13c82a5ba667a04f4741f21b1ccf59181c32be4ca7688e624afd5ac73b3cdf38d8b85465be1659801dcbb09c034c5fca541a4a0db33190bd1501e58e1e7ba901460d318223b3645752ca92d31bc68613c5580831e0df93b72ccfd1902bc8204ba56078a248e0f9b2ab2b53f445645b04576a,
  0x3d4082c88588c4a26025c5d20993547192dd2d549c28f71a2962c31845781592a0b2e881d8617fc588bbc878089d11c47ad20b38bb250c47d2b7ad8a618f2ebc0be354d7071463cb88255828f8142eee10f258e9ba1295c5519bc9db0c63f5a90fad1ea413e1cb3e18938e28e0ad8a05e0b67ff46c1969b95a9a55ba1e9e5a253e0cc22225,
  0xa4761642a4e3d70d1cff91b209fad1a35d13cc19b46984d20c51f8d3875ca74f2410398b6349ad6b4a0c67698a50cc7b8f657688a078229c2cb000c487118895f40175260970b660e39a5fc29cf7923d1a747eb8d256cbadb668274a9fbfce499235e8dd2f4a773a2debf7e024455e1419b977ebe03b44769bc2b056667eee01a7f0b33ca2,
  0x03dc0af04817d0fdc3f64370a5b5e73a61a6a23c44a4a4689929330836984438232e06ee82d730c829e3d2ff6dba767905b0a114d85cb6d3310fa7158ffd6030bb53e48af87f68baae11075da38502110c6a85d82d4ea8168a9bdab20adae18830ef115fbccb276f36c1251fd8f15424d24c33dc6d1bbedf691ae6ddd5e5c85fadb6788534,
  0x7d4379f28d4de1fa48a22340f5a955ca322c570870f17aabb3511e110e484f4ed0c41c9ef05817f8c6f3c3490f981d5d6af938df1613307c07986da9b93c106f1ecd22c400c93e0c7e59e967a933254379eb952dbae10ffc468c401048d2df75045caea7d718812a0c2520fbbfbf0323b588ccf04b47ae8dca21a61f88eda0da9e64a6f51e,
  0x620899fa63b170ec5bd548e1c76dfe787697f208751076b109ba61617f20b2ee1bee88595b9da76b4f916a95788ecf3c6e699026f959c057ffef0616695ceaf9aacffd381def74fbf43ab52784d38506c46fd327cfe10c5aedb037a6304680a5c01d068b3310ac021edbf7ccd5fd5403ea66398c61b2f88a51ed7962f84486308f47583cad,
  0x337ab86600b5c1fc4bb76455dcf5513afe145c683155d8a551d3c9fda83bcabb351e8f4baf30069ba2ed163bfaacc407e34f2624882f80e08d19226816652709d1b818f5deb8a84b0a74f99144640a6764f6f876a16db1f9e1e060ec886519f8fb9b267b7e0a5f4571231bd8d6611c315791a4c75e02d9963c77aae3f4dce6fc5b243d76e7,
  0x53114cc97817ba7649b039a540a2343cd9ca398822411188525e690f402b6baf6e73b8154788c742f93ec1c972169e8584684fef20d47ff88752c010ecd505b72e97f6e974ceefea424c0d315628a07b2c76a2cb0ba897da6f8c07e62607b91d4ad35b4a9da7029915f59ab9e4e79c05ec4c1bd9c707ac220ed7410b46ec06fa20a3d39d60,
  0x78024f620fd634ab9abb4dd23b8a7fa7a2ad42d4320c5ebf794ec6fa34e50945a9f8492df78a0a6edc9f076372d2f1683271ab07370a4729f7fdba4d1f600f780d638620c9378eaf3ccf0ed334cad86ea6b7ecd81c3a6300bab1e4b8df71aa7b906c54b4789dfbcc0d128316db59c3f6a97e52edd4e9bd108b2f37f38b64810c8a1e2fd8b1,
  0x0df197255af74c000bfd603d7d2a4b2ba5b7f787b36f38d733af0e666cc002489a6e8f218c7eb6103be39ded18a045926bfed71d10b8154b7e20134771e6959506c41da6297192c2dccb39e59c7e74cb319fd7ddd5f2a939cb6bad90edca8e4b4115dc013653bc15023a72b3e3665dea1f8e80aaed28a0f03e810c074ba89fc54838feae8f,
  0xaa2e4c86de6d598d19ecdbb58b855a3a4453a88781c535e7cb9cf8c6ffe9bc53832531e88901a673a7fcdab8c234e008c4d71c167f7fa672edc7971a9d7f2bb7646d5ee8c591cdcbb47c4ae37b50e97de8c1d43225eff4aacaf0f33c8d9f36d2f990cff58bc449968d88ef2ecaf8ad9b5e3cf27ef1d95beee36af8ad904d653847c895c5b7,
  0x36aeb992ce39528ead6b31f6e97aaaaf0509107d065d9034218ac35e95d8af8084493832edaa9d4e273611c7e3c0b42b00a3a1a9b0ef6b40e5357423a1ed2a103981f58515ce7854ae1a52ded17be5a31465285ba6aaa877ee99c9c8b4add6bc371f2fd795baab650d2e4df0b259c59c091c53392dab1e1c51ef8386cabea31bbbcac5d7d6,
  0x0df138b2f3ee14e58efb7bd4ec0457073b02ac2f5b2332a06de3f5f7243d910fbc5ce421f923ed6499f615bc712496e8e0979f813eeade414e252692f772611692a7e8f90d4436f6039addecec0237c5924d4819c0c8bc4d5bb05196f57d8cf26bf3c969a4d8684e45252ed3ba13cc70eb861db54c81f93c032bc73f30f149c20b85e9675f,
  0xcd55390352aacc2e80804e6398be5e8a9259438e4c68edfef9872df383890da86b3f230e0ee0ae217e29032ce276538a50687b04086217ef98b762b8d56e4a7806b8fa244e734baa2a6b514e112800cdf874cc82f8a7902bf8dc112b16f65e0f275f0cf7e0bb68df2d4edb35dbbc544f3cf4c0192be0b13f5c1edde445b076cb06a7f3b046,
  0xfa7bbfd6874924c3e182f65b1dc0cd5be5bf484f53659baa9328ae97f7750ad13f415fb52d6330c4253b86e219ba62dc3e0b02cbe8c08ba8140bf2e5c37dff56ed11bf95ade1d0a377f80da01e747b13c65b58e83cf73939594cda589da777e11869ad33a4a1b606d274421fe4536ae01fdf9a963aeb7d11fac7913d0279c2ed441a1e98a9,
  0x8499d3f232e9cb817275ec08ef0092edd5ebf2987b7ef9e5ec3fa39a4ec708089dab3fb516fc1f85a7035b36a625dca6e0ed62814dc73c66ead511214648a3d2e19ff48dfa0660878affbdaf3aa810de932512f305cc1f3c4565aff0bb9ec209ee79542a467c2b754ec837371d1e6bcc18ad433f3b0163ba0e50e7f2310169e6e27335b6c5,
  0x8983bef8f4e1c7058386dd622a6964c7ba183d5ccf6ab9bac9417e157e99f208c5e0b745df13b7a111ac87de262fbd52204c089a55bb7e482adaa4c174e942658c10f8c0a8230575b432053abe2a00f29087bf1d3e1281a3b52a1f6b20454877701b0d1fc694501df50966508aed7ebe85a632f04b96b22f4b803129adf585abdc46cc6229,
  0xb2b6fc6c908880e8bb8e87badb81783d9f995dada2b29d1697159a8fa6b0b10152bf6925e0a90986b08bef3a6ad31cf58afc1033959ab1efaf6d10d69acac46c20de903282d34f27510ba981e58de8ce56f58d5c30473494cb1bd5ee63649a039d84cc84e7736f3621c0d027c20a929873d42d833f33a48da0cb9a23e828853a915c5e4c42,
  0xa4a391abdff8dce67b49d153216a781d5858ffaa01913f4409861b8ef7bd2adf64acedc951cde494acab0085b6859c05f0ee76b01fcbe1f8586b152fe67a33954eb4a05c845f299dc5e30f5e533c05d8918599d4440ff4de7cf48950b5ca81a807a625fa42ba8404c064ed46c98bcb48973e76eb19191a1b7afca107d17f9f3b1d3bac6a88,
  0xb1e620050232c0362924796e34e25989f17e81ca9e491e72842490f17778669e900161522551798d12e3a25a6c50103e9a3d0c77da51d91d1fe825fdc71d64b0f9b65273a49ed220d4405b9726fc97ccd18491f536edd052507a04d8b551e9d0925d6f5d569213fbfbdc294073781ebee5767df0669874d69b5c1889fe1ed5f4fffb8d3fbd,
  0x0bc1ba25a4c1c667e84f26ddf8164297160fd3c0aa8c136a8015f58a081b892e70a7bbe1546718bc986ac070a0b33b61fe05651a40ed92f83e236c09892e2ef7d3b427aa1a306aff506f119a993113d2d8fbd4c70915a5c6854a954f71b3f75487ec7bd9f63a79f4476c62c677d208b487ceec7f0974a37b64ac2f1c2c5c50a7c5340f3709,
  0x9fabfe47ceeb4356cc52d4e13127f4f829c497b1b187b31fe176414fec5dd672e634069fa1d73a7e60a67228d0577149120594e31aca2778fc16685fc01bea6d90946bd6712002d4c875dceb9f6b1b64c2aeaeb978f6ac458c74609cf2c98d7730cef7a049722819328faf5bf4107996eee7ced62f27545e37680641ad59dd0384d666d6c0,
  0xf1b76992dc75423da1ecc9c1316278b03523d4f555dd4aee81c53ce4f5f565bc9b849f64dd59f680a35a3fe1cb850e0f511ba1e6a3d4899e4ae7c925fb678ef3772a6350c590b484f7d56b3916d152d5c697bb7bba497e1657ea0a53f36d9fa1b0350923283da14047b08c80713a01b6077e87b12d9676e8b6edc87953c4b813b496810694,
  0x009f34b6629ff1f32092a020cf3a9647b0bfe3ed81baccbe0b9d6047b8f0ca8c776a87358668dee89f2cb788b415a6db7ae261c0fd32d32b8690d1f7fda9b8a96d77b8c5d45497423ece7ce48fd71a4528add95a257af66d0d79abb704abc35094622cf042456016aa9e73f63f8b845d10b7003bc6b0b7c5580cd41cc37046033c67c9679b,
  0x55e5d3c529864ccb8931f5a48a06862c29f5680733f2b60b92530458953215e84a0d57b065856951ea4f617b6d98cac6a9652d7a411ff0ea7ea54ff5411b3e1c8f4a2301a7eb38ec1883de1b1d9f8e97d4b5e854e1abed6fce699b35c20150c91e0341db1b10a687061903f0365296da58060d9833b583ab0e5770580e4f354af106868a3d,
  0x6433c5478afc27e5639d155fe2b004e6327b2c5370ad6094210f525c65457e6cd0f803de9d4432a36a08c7ab31cb8d60d37d28fb4a40a1384a201cee05a1eca8529f4d960c73b216dcc5935536f2f4f27e421a7e5ecc353cc7f964ffb561865a3ed79a001b21e98b755abddb76f629c857fc5ee3cf21fb99375351dfc760994e42cc845c48,
  0xf9ee8c03993fd321ac09e0585225302060f9dae6355ec42a80df7951e141f76440338a955a3ebd71961afe77ef96c69ab254868a941ef8773391c06077238b9fe74a766220443e40f077d9eb8fbdfc98c606c8c90a8e31f753a12b35bc057182e58b7f8c1723f9d84e24874476f52a6e6c3123dd5d820fdf2b600f32a3c5fe30c36e8d324c,
  0x6469311852fa5da70e134ae8573535b6503c469a9c3f59e70df03bf7bdc4aa1c8eba312e01e33bcdc365ae23074de858c33affb97bc7d4e25d53e241138a3710738797789070a10ee5dca310c21070ff955dad2fd84c80eb27796823f3a38fd8f89606dd010481e9ad66307569000d408906a2626dd6dae4b0c85ed911775e73ecabcadda3,
  0xc441f642eea8b51249173435330210dd9d92a407cae90c7642203164433a50ab4dafbc2dcb49ec873cbd1530af9809d1cf74532c503e22eec32799ee9d68bc6e956f1fed503ce127358cd7fed97ab25843295c842568f4e852eace033044b9a37e73b69ca25f6a0c6368361aecc42b529ad2f463f5316ab96c479a04384c3489a4a0be0caf,
  0xb1f992d68b51abfedc11a6291cc84fbed93f0cba5981ba7bb2493a601e3a9cd1e9a51dc49a7ab0f0e59e020c5245117ca475b8651991ed160a689eef2635575f684b5736416814e45ee63c80e8f81297d02e6a8f092fc93d669421f2ce779802e1f339a9ad125c9a9fb227ab991fb1f3a40e2e87387a2761182064c3c231dff91d4cbd1921,
  0x2472327c75d3557578aa3194521a91ddedaef4253e79499ae5d6491046509ca3119cdbe5f575ddd89b2d27e340365a181a10cf8905499c8c7e218fd4dd177b5015b71cedaae8c8bb9ee659ac201363d967dc3547a7df325e1c06297e3d120b09ceb3c4162273839d86a56dcd4b37420552781e9111848686094e38b975290f856142b36f0e,
  0x780959ca2310d711541f622482bc3a2f5a227cbaa993ea1b3ce3881627eb57b97fa9537529a1f110b69fa1d6da971dea89afb1871d9e52ed7ba067732924b33a426cccdc100c1cdcc71f33f559a87ce85dd74b637d38156b8541e54cd203777b9011142c71e29bd610a667eaf0772232cc4d45e2de2d5c779641550cfad641295fea5456b2,
  0xc522df9e993a540f09b6c0f3bc8ce5426a86b40b2e29408ec2ba975b704b6b47c1b81f8490452b3d33e09fa6eea97142fa5e015f52409a01ed19eefa4d499744b36b80db600f4abfc1e243b605721020c7e2f7abf79cee4e401b5ddc6a95f492358e361578e67eb0f22dc25ba2643b9d68e76e5515c30240dfcab3e34336ed8827898680e7,
  0xc7a1c174bdc163aad72ec4b298a3a67c15e29c75049bd0dd5a6a8865f774bfd502a4e2c7533d15bfb59b5939c7b96185bd71bb092042bc529d427aba34c6f0f385b66d7baf1ef824e334fcfe760fa4eec57c86b6bb1cd56203bf861868dac08f9de2e8aa1d78206f1da0ebea9a859348a1bc732bb6addbaa9529ab586d2b71c93b125c19a6,
  0xdb600d69470d3d1a11e97d060299512b294c4171f6ffdd2b82b71379d370455be28ca2edf70ce858f479733b7ac5ce7a01d4d6637ae5a694a41289cac8b47bcdb4dd9b3d963cc1b21848c59413b7bab0a8d0ec3f5cf2ec0d99f8e7a6be5b6ac8fc0dfb8ad4f8ae0ecd6ee52e2f24a638550534d5fda31a18fafc794d9cc084da346da751ab,
  0xbf4e9efad608279fb1d38794b9d18a37b3724c67498ffd06c24364789c17f7f702fb71a9325d6a5b8d7d96f43f7af9a7fa48a8b5549a83fc99959981dac0ea00b9a67fe9129281c7321f9129ca951b330e2ef15c5ab6759077615dbfe46f55ac1bd45c1625f1edaa6cf14d02219712035d4adb003869c59c18704af97dd3cd09deb428d320,
  0xe804555c6d85b541d137a0d0f91dfb6157b0055fccf66773d1f8789c0585a89ca42d9788a16d6c13fb6cf583f5f9d501e5a981c6482a5a2b65808bc455e2f9e7299823e7d5b349d617cf70072593be9f5dc97c6cd00af9f5f40ca837b2e8ca73f2e9d53efc90bf0ad4b2ec685cc6e7d5d4a859fb8af593ae379e5600978a23c0ee94d914ab,
  0x9bf660ab54175fff7a80364f6cbbff077d88e0ad9629170c7a01d2ce49e44f5afabfec8275062a130635f59e2362e7424e486d95e79fded3d53d6f87dc86cddab5e1a4dc5ad69f89eb4e32c09386f0bbf107d25082ceb190b578f7a877360848d52a83a8f80bd9ef21453ef57c6823b2098eee6acc085f256fe6cb1c7f56799a2e81f8075b,
  0x4c05885a874228f845c6851904e9a0744d3f4b997a5966404f55990be189050f239419b84e0a80df67c152ca52ba62f43298a997a6abef685443612dc94245b685b17c5e0604134d15439d96ae6031b12237aa92215dd80f33ca852d5152ede72789b03306475f1c71d9d1e51c4738e9a5500f603dd5e9dc97cd63ed4c0af55e54fea98427,
  0x836f850acac422d7f30fa2a208eb70e3b00d704e9fab7551121a6486f35bdeb8957ee45bd10815264681891af03e6ca7629443d62c702b8891bd790117b5d9f6c657cba4020eb7a35467c4285ca1043570cf2176d5911664d676ebe7d75c353665fc714b6de4045cab3d3a62af7fbe2823ba8144a8613d2b699e199aae47a902120c19f94f,
  0x9043290df9024849bc59003f0a34628f1f578ae7b9a483873e7fdfbf820ef2ec6eb40b14597c681f2254b3db8ec9aac1d2941dd4dac3cf8e309249c97a2c0960236b2073c1feaeadd74977695aa5c6ee2dbeaa593510bcd5043c37fd35438e82a65d7769d2a534c1eace9ef7b43e1e096e8f205ae17cf43b91dae8b676993b065ad956df84,
  0xb2c68892d6d4ff54c381e17957f6c92e1c1a79e02f305c15374d4768a0a30c5580907bfdf242695f057730cc8054a27e13710ac0c196eb0cca125a369aff6d1fb712127466e3a010bcfbeb189eaa382eeca00306b4393a6369a638dcde7d35ab136e75984d88d71b60bb1cbe870496d80d718217bc106eca274c05fe9aaa2a5714d152fc4b,
  0x7dac4b68e8c0f1223173de84d5334120a9e0801a8f845a16cdaedbaee309b6d59615228b4d4ef09e43f2c36924b8f3b43ac1fc45e3cf2ad0157f988a6fef9dd0af57e0048a6018915eceb9c74d4794796301e7cea61ad663c8386b72d757e65c21db0b17679063e2dbe6252cab01fe5d7788621ae57f0c03817e30ec067638936ef0e4bdd3,
  0xc8a99288de2d3521d8aa853c997a5c62ced8a96ff671df0feb06aa31d004040b272e8df6394f78afafee3c69c21d90ec38addb92ca9989a67f05abb708976442261f418b573e3fc2de34ed144774d8eec1627e7ce6d54130342b57f34d974ebb66361a27e8bee5635808cedc4aa38af26ab15adf8566095f461b92843b506527a400078f4c,
  0x7071d1cf83096620fe1f22c22e7cec4324bcf03832713c29da61710249c30ee7ad1334e41c89daf944a7c67ee1775dee14294646f1dbc536e47be8adcede23289e616561cc4756f288481a7daad4508f0d48db91e6a8ea8ca0c4ae4d57fb9ae15450b21ed7971ae74bc8c6eb034032b66a5c2a51b8b21c575440418e3085fdf11948642688,
  0xc65f90d994f65629e630647057c746e62446f662001b64aabce9802180df371343841c6d50ca0fb6adf0048a4ec665826a98bc5e2299981e66ed4d948bfb873cf54c6d25d89f7f5eac74c6e8704b24e2f3c30f44584706d8dcab3d2e39f970c0f15bc8b1f3c891b92976083a4cd8d0878369ff15a4232018f68e5cd16d88f51e7102791091,
  0x96cdd155f3566561ffd2a30f74071deedb99d96f60c29322544e3d6aba4beb9c787fca4a384ffe6bb57abf1632340432b8e7210169fc3edb35c7de7549a3556c6775d906742bce8ff3d935ae1980eca9e14e5cc9af12267fb7f1ff1121527acbc843b9f3d44025fcda0b63007c716ef3216e0c0114f8116fbbfc4c256522a86ceaf7fd0996,
  0x068686fcf5a42adf2f1959b0901a6a70294e6d1766ae00a0656e5263d23f588e801e2a1e2387952a84d4f4ee3be8088d90bb92c8cbaf85786f1b4c9e45bc06fefe1953a022133a9804dbf7b0ce343a0ba6843e2f81d7a40f84cdac04b44013a744b77c2a30102c50905fb7554b042ae9a02944249b07c00c4eb96108c30a699c1f9cad71be,
  0xeb493305e72c547fc8530051d6a7ed861ac052c143e4f0040fec0c6e6095e3ef021ac74724843da8993f58bfcb5ca8bf748e62247de2635b529934579d144317994ab453ba7eab379ee2596e3ce71b08a0799466d40b9f71dbd94cb96f0bb6de679b9fe069da87471cd4f76c4646b3c90f7d712b06037026c3b0f555a5b38d203db9b7b52b,
  0x8aed5fc9b3a7c6055a3f3d2a324df033f96bb4dd2eef7e8029ab852fcc4b88ef086dd6ed3f077153dea01903909d23e1fb70a33e557458650dbb530e8b9500fd73eb7ea95d021118831681df19035054a2c591ac65536b9da9310e2e070d6afccf73f63c2c9666cde7ec72bda0a30ae94da3fcc5de66c8a4552305e772e63afde91640c16b,
  0x120a7f3d731384dfb3a9bc5722cec82d6c9b55603be2735319a8e0ccb70f87d218fa0981a1046736609f91c5b59011324286e265dc6edea84b3771503b2fa08751c325c6e1117ac4c5b9f0d38ba9a483bc28b6be286ea98c552e8f538fcddc666411b00fc47f2a80d2434394ea049c39595f4fc22e8edb5dc28e615d183378114de285f819,
  0x27eaaba8192fe5f1e94db7c31df96f967832567bdba9ea95b8cfc1cf62ce819a24adcdda133ced658a943b38dcec693600483b10bde0d4ec04c7a94f3c2b768c47f5f1aca3eb49e53135ff9e6d3cbba0676d4efdb220e287a639e113673456b133b4d35d18764f56ce0f3d01dd431f300760457600ff5b86c45409383c6af6c47d9c5c0331,
  0x738cc0e44459d62f5fe9f7a1c266568b88e92c0295b430dea4d127d72542379724983879f9e0e4c4bb28cf3d552b6c0a497ab03b033a640851be1e0ccf93a9a2f92c6af9de4b812acbc8e68ca9a78711c644fc0d83425881aa5ff760e8dd2d074162eed2319be46e4daf055ab46a3ded5ff0104ae0284870bd042ccea91258ef7762e22ef6,
  0x040d870be0a09fcea86fcee4fb315ade4fa615569a90215891409b1400bd890975a73057458a83f76441b8426e3b948140de3677160920b7e38d6bfe4bdd1003c01c01816a461bb0757f47f84ff46afd65c8be6a58cbeb5855f7fb843f789d1a3c434aac2fb36744b058b481ff2f1275d92ca78a7b1ba2916949ff8bc0ffe8c25767ddce74,
  0x54f1ff4c0e878f46b2d70982c6ed024646c812a63063f835a9d04860316b8285b5ba8f9f86cc321f21d8a8f0b72a84c2a4b677c22c55e21a722c9ec99bf095142667b75f624272481fdb9d6bcb6ce1498b290c7f063aa309a7054cd6bbfe446121f1f1a05add8b90e525b06cd3d1caf8c5345b8c938aaab76f8070eef4fa61891900ebe1d9,
  0xee94c0fcb7f5ec588d79f462e33d3286e320b4b6e3741e5e1f58cb6d94fa32dc34343c3a148bff864c568b51de8691c19967f2f65c1b9d690559f7eec215d58602d561eb897d3f05bc9e8b869be2a5b1f4c543a84b4e2162a1db8649fb10901e50b325bb24aaddf65e809edb2818ad27bf80cbfd053f10d668a77e218cd0321be5df108452,
  0xa6be12c13698d91338cb5b6508fb49ada4e36a03808a066570f1472938de1fdfff9111a29957d2b58dbae86ea260cd1bbcbfc4d6e90bd59ec45e76eda48fccfd8fc9efcc39ce73d8440ad8828d9e2b557fc03928dc84051f5db2965bac337ee648a9d12a3e11028d03155a9c9cb526841b25ffda85d28bcf2d75b83c3ed9fb1678aef68132,
  0xe24e380c44497409e4730fcdca9a07b41657bf5bc4bcc76c46ebfef114d7c8599ecb7f9929d220e7176f49943b8b908e54b0b44c0569d064a9792566ce8bfd68dc2d646390ef980a4088f3a535e1a63f32a1c12ecd0fb56b98bf3928bbb23595795df6140e76d2c80319877b4c1132d993b354aa2e89163981bf55aee4952ca4dc77f00a95,
  0x6b2eccbbe16bf5fd4dc8c46c58558d5454c11d1f1ade75bd110be8aaaaf56ebd8f0bc1c45b10a5b3190a34ec67447f1895394f1054473adc7eedb157c4eb41142352eef859e38cddd837654d356176543762cf420632da43b45bffc75e90821423f23ad7161a4e9be823f356bfdcf54b1813ffc69339905de7d97d858e9f9108c6d9db29d7,
  0xad67ce7abf1ee3ec825d5775e99caaa86dfab959d75881d8231653271a66396600a0e0e4f50e58373e08308c1e5af6b7efa9280763ddbed4cbd66317114c1f925f52dc2ad5a6d505203f6cd0dec459c618b88dcfb2a86a0910aa9bac503940d0dd366e63fa374a9ff7aa0bd76fc3c8fe8805eaee26597bc7758bc99e1fb773bf729cf1605c,
  0x24a43dccead61871429fb1591af30fa1fdbe29346f0e46082264ff30d44f039a050f074342c6cda3721b171e0a566117035c0201b499ad1dd651c8682f1721c417ede44d0abee23ff0788d57297e1f2f430021945e8b1011851fde58ea626d455f6ef59ddda350fa5ae18d9d6fd473f7a2830eaaa31d3e0dddf7904b5761fab0dde630ade2,
  0xd8c2479578d7be2e6dae2636a7767ccb7bcb7dfcf550aa0352df8bd1bb2893993af926e43b2e42092e95fa7ff4f75f87677a113a5b4faa2e5bdc660416175959d8c960f0fe0f46741e8292cbde9dce7aa6173ff832807f6fdfa9d2870fd50b5d8007d60d8010421aa1424947bf49f6655fcebaf18e9abca13e66646ccc8137592ab7da6f90,
  0x21291357780d7c4e3471c78ee4a96325f02b626efd5eb495f2356b9de9e07b61ab8d72aaad17cf671c4ab7658006ba02b4797216630d283b410ae8cbd641fd890daf6e8243b3265e1d927a1ebd6f82effea54ae10080154de9a6f12d69c96f98410d020a3a315ec787b6190171b21a19cec536d0cf74bac3ced96b84485cfe4c9aecc9b62a,
  0x1ecf88597442b0fdae226f30cced871298e1b40a817caabfa525f6b7b9fd5196e82b52a144a1e94bc18311a2b74e1d5fffb12d0c0739c73abc04455f4a2b8553b7660336eb441dfecdc47322c86de8ee5b57bdf4ebaf53ee81e3fffd8611ad09e3b4788d4456e9a1fe9e323587010317d8140bc59441f80850c24373f76b54ff57e53ba3fd,
  0xbab6d859de5d1aa64f02fd5aed4eb98b32df86df00b7b33c7f4d6e117988c80b4bbd6a09095cbef76978558da4af809a1d0e3348f4fc1146d79950a2b288cb3a43c6468486b6b599c42f77ec82656c903c84f595fc05b6755d7545bea53cecfd36321cab75da487511aad3ce0692ff65f17e93f64de2a21f319de5c33edc556ca6eacbe289,
  0x1b8782a8e5ed714b9dec2671108be1e93a50f001c3607168b256868ae2424ca196b918fd2a40227ba254bf5ccf7629aa8ada0f4742bef7b885d4cbc57d7571948ecfdb86837bad0334682e9ef59352274bf44467a0ec3dd8bd1cb9a7571fea7571cdcb0d4b4cb3ba6516407ef339fca2821391749ddec3f6673a645deb78617db5bb48e671,
  0x61a8221ee518d7757d80ee6303e3e5a7e38e5eef858e6ff98ffa3273bee6b51c4246583130c92c57eaf436468980e32d6a73b8ab6c8f024007fc68a26396d69605ee475751f216d8ddd189b830839996b0bf42ae6425163f833eeffce767ad62b357945d91a3667d5efcc67fbad15da12d26d840f36dcd6598144581e2ee3da6be699e97a1,
  0xb62b791822724fc7c3c64562e7dd19e8ebc78e1d9b3a6d83b4a27c3705888184d669c207840dc44d6d41eb75376a0997e7cff13fb50ee864ec80ac9b1eb3e0061bf7d33316b750f98d8963bee6e91b3567fdd6c8aa9384eb53551caa74a53bcf17f207f742ff13dc84221a823209ff79ab0c449704912716d41370b32b0d5b4b2a77a85969,
  0x877a96d182cd189fa775b45627f7b7ab0e64ebda16b115601c76d7f50ea77260aed65191bdea47270fc2c52562c0d52cd6728a9745d929c7775d5dfbe173fa8c98f39596010cda14e773ea70ef9c64ec9d18a8d52cf1f95bbb2f4c664eb76836355ea1094c91d310b0a7e096eca7010ab58c3269ed41aed78e094419f8e6830ecf092fcdde,
  0xc1ff84793c37d053a427b5d8d9b53505d803994e8692f3ed6219627a13d22e51a30316af0be450fefe162a1a97d0c065f9234d25c8a3d6786a456f41a36b4cdff3b0ef2f503286733b2e75b9719fb030d81a88f195589901c1641cd9fb482a8a222f0afd78ce7adf820f4b549c4eec8399534d719f2636cfed37e4c319dc9602c06622bbeb,
  0xb247a75bac4385f4a1c2452812ab4f245da57d22d2ce0dae03f96adfbf378bf7a66423a92b1906284337c342af6df6a23f8e6abdae519fe96a708ba1ba4cb25ee5f38e982efb344a5a0845f0482cc43d5df25682044f9bb03e28a50738f87e97c0955dc43a06f877d4586e719d6a8d4ab5af158fb3eb84fea67516a19d410064874f925b0c,
  0xf6f77c303c656f2be11e89ec370da27f668e452d8c3f3e0492096f071ec6926d2faba5c06f02430dbbc5d44e13b85f4c46377b5e48b86eb437e9cdf37a251b39f2a1c64f160d32a56d56675825a2aa851c06ef6ba1c85228c6654dd070efcc42f4b9b3b32af5c1665d05a0cfed9836585cc5dea714566d43f8aa4cd2dfb327674043b8325c,
  0xb9a4e68e4d80f1fa4e5060dc5b28445be1755a1235245555697068a1a3688fafee2533ef709291e223c007609ceac4478a0d8c1a0618288534ea6989b84eb15f3c1f0c50ef7e44aa0954a7d11cdf43c23cd8382a63c0fef0d02724d7d3c86fb676229ee2e85ee2011fbcc1a27dd3fce4341a1a50935330e0502f6f3eb5cfd48fd687713fab,
  0xb030834d079ee42f864648319a2ef88bb7bfb05df3f68ba740054fbef78c20c6ac8c3762e51752d5ab37a0b00c2c5d926a79a62d4fdea987e3de7eaf17763a43e944b53c4ef59b8f60966ef8617aa58341060cafec7f00e3742969d526c736c2264eef24bb22e0d96d913ba1d01ef5ff5766156873e2bf056adad50bbc689a2e25108f3aa3,
  0xfde1d37bdd29bc0efa01158448cc0ef0a3c1eed0239836805b0cd8dffc557209995a97e3c789dc6fbfa2d79ca4b7363e72098961b9274578e73da8ff0836083d435330832463397f3f400d31c53cf031916f6c985333b3373d5ef688f5bd9bb9e32cb2d01cfc437049814d0670e4c83f2362988483b986a0f95c412e37e451926af70d60dc,
  0x59af5e204167450053681fbe9281b484f71c6b40479abe3ac3cdda6cfd261dc328a0dad8edbecaa682e0357f9a74abb9f4bdd29f8291872db74777a942c3983f99abc005d2ab4adcb6c5cdd9f0e45464a222d2b55e95b4465fa946a7594b3b0d469797299c84b684ebdc19af18e2ba9d5307e2dd053b78d4115227394915ae5001e5e87c83,
  0xb5e92ac9dd289b1063e7f9711bfa95efcbd90b616f48871438df7ccc61f388bdd0f74799bc2975a29f91acd0c2b382717e2519b5aaf00d93b589eb231ed03f466a2d7ef5329a07ca0e5ca9e6dc3f5eb418ed4deedcd437c01017bfb228befc1116468984a0ed1f9dca38e85681f0b6f1257b1dd0f57fb4f18f7924b5d9f95dc64f506e546d,
  0xa5446ab374156b9d2e08ef96aeb851c9f3c3fc91ef21887b5ea82b8486f89caa0f50e9bf1daf2674f8fe53a4935dfbb50a2c2c58de263b2fe185a67a7776218690910482c63e6d0b1b273c8d2733acb2c1f7737a7d010fde08fb8993fd3a810bfd3ccd39fb0f979386b95d70c4b7d38f666681911b1878beb8dac573330e9ad56a5b6aed5e,
  0xa92730e1a4da50b81f01d00b2ee49d34ecf6cec8609a8a9f0da82ebf2b11e12c63ad08d3bb6094a84508e166e5154d111bfdae66a9f809c7ac9ed01ea34d82930258b206fe2af31b93ccaf53353b7f027ec4f8d9faa1a7b01b1b043372de379037bee5c82e6e7680f8dd2177a1db57c2f19aa92937bb99af0f93ce4f3e2f0cfe7839b35396,
  0xadc4c65f12b023fb6b6488d5c3a4cb3c7747a1afebb86608b0ce007e71be46a6b9a50198ff2554ba98e0e5baa68532d406d206bae0e650ee618d3df8d17ff0b3182ab5a851f2d645811eb4c05584708bbf412b6c05817773fe6390ad0fca8d144fc7bf996e69ddfa5aa59a5ef4e58c9f6122b946a1e1f672879d0b2a09a9bbf3c67f7f7e22,
  0x306b4369a653f9427570be7da0112a12a7fca2e89b5730c2aa10cd13c7bb37d8fdcbd44d502ac27452c3abf437f08a5c785edc2a6ee39cec109321378bb6bc408a60e95f4c7efc0537c5496f5d6fd8dfbc1cc334e6f4f168e5626d83068910df53b2e51a624afe0d6291468b8c02a22f54b3e6e36400873904b23c474fd7d295bd0853e5cd,
  0x2826f2688bcbdd249caadcffe6f88b16aa320dd1c93ab2973821b34013745bdae8f027adf1c32fdbe8558c041b90db11acc70dc8658251122d682c296208fc530b357cd3f4dc654925a99d9b9afdded5eaa0867b807e69152628accc6ffa44b9c22d5bc9113ec7ef8028e723574722d2a7997f22b37f1e49e14e41fbbc4f35dc61d1559bf7,
  0xbaec58b83a5dbeaed3345263e37567a62f98bcc7b839de5c172d8dbdadd47f577046c06b09405b192551e5053ac59d30cfa3e75c6b0f68e2c5e7d6800c2d755558706b49f4de0a8e344692a5dff22ed935b7f475ceeead7284be829958dda839f888cfc2e0c69804e735389cbdedc604bdd912c82f20f0276ab5a66fc7d2a564b5afd4e06f,
  0x877423c3b7312089aaea6b81a759ab67729fc837d95bbb0e5a758f6112c55bd85d3ccc94ea38cd37a3df189c813073da59e94fb497c71dd83c48bfc900a0647d81542bb14f204ddbba6e32c6d3cb53fa421a367483d0cd3af53e5370062201ae051ed83c5c32bedfa9bb4cd24f662b99cbc07c2118f1d46ea4e30a95f3fb6aceb8e4db5934,
  0xdfd27ce1bdc0fc7a82090f5d967a8f3300ea60ae1dc9e1c51e9856f9166fcb7e9f85356a914714b6ccf6251a3df26e0d3b397d0707bfc2f4810f802ede6a9e9867bdd8cc1c64c3b66e7cd871914d6484ec03d120f5371e0e02df8815475a8245f76a718de194d0266a46d3001e8f09961b401215c68b2a99c04cbc65215a66a2629ef0a778,
  0x438b70003075ee2d29b2e8a7f4aaedb96015674169d4240d3dc9aee8ba7d92dd4ade33bb87c7d0771c5d0906959b31129c0bec83d8e7ca6745de4c7289c045a110bc6429ae9df817632f33d43cbe448f0ead2a46dd5af2965749642a30345b196e94daf99a8ddabda9920096d8178445d3dcf7eacffc6396cf37d52a795a54ed7d1e6fd472,
  0x4330a08bbb0445ce79bfcf2247724a1dff7921d68a0828fd021db3c11777c6e4a0f3a7bf2e6dafef273c434e00292def69d476568bbe6ea0626715983eba224ab4408f9bc6ce953b8ebcc9533fc1a8679b947ae56529e4d057d3d006e4d69060f1b68beddf03f48ef50f609c5da147af7702249c25a2942a3538fb15d9ae3538364ade083c,
  0xc14045f2947c098a86f835d7845ce3880d1529efca0c3193951e60799243cd813ed286632426b089294b93f47d95b6f028bc619e5b5b42b14a9c48566817f0a45e6114138786307091b6d09cde31136b401c8d1be955d93b84164af2530393cebfc28eb41e0a572c577eb07253d9e7a84a012f980d200315ce28ca16f9b2442ac9e74fd5b7,
  0x7b8de87b78ead514fe975752493af75157ff6ba6ebd0ab8de0a1fbd07727332685d9a97ddacdc610b8f84fc7c748ca691d735634d13d0fb020ec6b51bdc1ce188a857fa539a24508010f8c86362e56ff6778385af2a88212c59c03c24e16da3653a8bac143b63511aac94f06005d426c23cdd8cdb226200147e665473491d559e579668205,
  0xf228944116c3a6698c794a5d0ce078a81ed73084ebef9c42980a6da9f54a7d0df742ccafe3459031593dc7137ccfeffdda59b97498eba3b19adc6ae2287928d7e54334740c4ad4c74388b354404828ab626bd6ff0ef69fe68aaf7299b0feed62ee611bd926684e69ce2e7c1f440d83c395bb9925f564b2fe815326ee2ba396304642138e38,
  0xae91209af3718e9a3ce5749e89b6253f00bdeeed3e3656d75fb2bf4b125ba9c9fcb0ee722d5ed67ab07976863536d552ab9087a40fc002612939953156a42c8ca3b12e81fd6c6dc8f3e892f4d30640455b7bcff8651ac63380016a1fc35edcd523cf7268bb7e8093ba61c32576df6911cd12ee95daafb744c02e7744ce472abc0a4ddf08cf,
  0x0ed0c764097bafb8ab2efcdeab8b988255303b7a2a0b6391fae4def5c73a2852852b803af1a18fbf875c09f93f60ce090966388957b9f0e06f3803387c2600737bf12a3174c2ad0e8dfe4cdbd7edec5d1cefce73f4532fbaa111e748d9ae31938466c271b96c8b1b6c0147aca91cbfad3a6ebf1de74ce4642ba2336489d00deefdd1b011de,
  0xfcd0b2aea9a2f55c9ed1e3a1a3ff1db44cd88bad912a0ca63f0baf0bb91c09cb48b27e5a51b9cefdfa082e909d682bc43863ab2420536728081a84b67c3b12f26d4da982c8f8a7ba92972e6bdbfc23d3ab8fdfd090d529802946a97734524fa027a1f54da7331c8dc533d1119d9e783fa547f90905cba27b048cc3a4b98cfa176260da9562,
  0xe2d30976eb86dfe6590b868e96b8f94276cbbc4a1dc13a377fe98ecc6d1e52219021a957e764ee4a5a3f336483ebf7b87e1970fb838f8e61fe0621a2d69359dd49d602c9ad362a34b0dd7369224431365f6c80431a5f3d24ea057b584d1573ac2417018cfc09aa3755dd3ee1d77eebde62d9a153b80a3fbd6c8e7f02087ff48a0ac6873305,
  0xa6a8b9831897abbdf2bf5e3f4d7e6c23e7fcaa6844510965ebd87b0fad5b1d66093c82fb8b9eac9a5cf2a9ab9a159ebed480a35f9ba11fd67f291033fb71c93e42d6f011d7a1820732041a152a19b454b1e6b783db6cffcccef0098826654a7c063d8e97b1085319393b38aacf36a68fc81fbd4d0bf4e55a45e5a6f991ce7f661d2ebddb91,
  0x2b3cdcf31cb8f074d2cd4b2e2f77ece5d5a3ed07bee10986cc1844968cd2a15d68b4398eeb8ada197b57ca9adaefa6fa46b3dc2ad6532c7cf0281c1170058ebac5c96c1e1b4d4db300f23bd146e040983bf6ff74a95d19b0486875df4abced85febb1b890006f07a1aeb3bd958f0975e37d7f9c8f4bac579404d35f899fa59ab3d93058c83,
  0x2baaf0c6f64798cd51ab72b8904368d2c006e074c02a26bac2e9993aed22fc1535e4975ec2e3360e4e3e4274e66dc00637ab730640329b3fb50777466262392f38702bb478ed081798b70e3c86c6c0b4ce638a9525bc962dabdb7c1292b73c6d19fc3a587c67157fb8c37316c86551eef50a6ffbe9b85f6ac6a5c083a2c08bedc1f3bbab44,
  0x010dc4fa686c357af87af9d513039e15b2c83a1e53182040803fb567388d3dd8ea7d21aede177744bf8386c96ce8252001dc376440f1dedc1f27dfbbf0323193130e6c9137ddf6cc93f8a26252c8a10dce5699acdd64d4945e8fa5003acfbe656a94b5d0471b65da1af2120473ecc680aa430f6380c013dddafdf7cd72d6abaf60a5ae5f11,
  0x7cb393bc0c9f6a528a9aa28b64c06d8dfdfcc58db5e7412150ea1e5b0849be775ac8263fa4c4786472de052cecbea60671be57c469dff451e7bd2e46df3c786351f74d9d3863c3fc9cfd19f330d9e19eebaf87e09c86ca5f886c4858f7b02f176323233bd8df3a7839465d99fc7fb80fe2c4b65c2453c9737b6864da30ee92341def9eef64,
  0x34bba6b4228edaff4989c724c4e7877c9030a7ff63ae5e56e3c38bbc9b55ee92f781bede1d789f673ab3ca11a749bab46abd0b497cf386c9f0fccbe0a9f735a2864e14f4e1fd87921b078eb5a9d0c6b8a2e671ee4463bec0f5610c0270c861188cdf0ef4342f2c067ccdb69603f5d3a89114b202a4caad250ac7e48024b0881cd85eeb658e,
  0x2781e1d8f371392cd7dc2269231eda8a277bc59a794722a950490be666179300570e9aca79b05b7403244ffba4b79160ba99768048cf796512884c08d399eff730448d955cab4e7c1520004f2aa8779a59e97ba87f1385b7e6ef4b521641feb2e494b49345fbc6cd7b4d2230b8797d98258bc7041ca9be592206c5adb1caa757e0f6307e47]

/-- fsb/src/pi.bin, bytes 170240-187263 -/
def piRows10 : List Nat := [
  0xd55168107857a6fce8eacb73994188b776f911792a2332ab21004f3b258759e3e5caf280b63590989505d0a681eda8c0912b24d84f2d99169d1f1e46af65d08e69b7e7f3ca203845f8d0d75c947f636d0f566780986ca94679ea5141ab9887223b9fc9c6d5595da9c9bbe18bf01986e3a9bdea8a143df0eb37944c476cee1f901924c134b4,
  0xc0d5604c871f4d7f2ca88652b546e43126fc1c8cf5dade20ddf40b7bf88a831fd7d21d656874df06ce4fc950c7b1ba36379849b21384bd634921769210926262f1e9d67139a55a49364b143ba6de62ef359ffaf7243f7adfd236e3dcf4947d3b33d2344d30f6e6e49b25d1829595937cafb51fe277d191dff414e5c2da912b819ad732ab44,
  0x0b98bc74af01c7cedf7b3fb1d92be7248b5ee536020ad80b0189aeffff53c143ebbd8471fa4c8afa5908b8f2cd5a433d84905eed46bc4e85254f2641a03ec439ac1eac94e03a7ec584f5d0bda624320c3075effe72f60fcda0d0958f0de2a5b6d0d137001f995cafd3eb0637180719c495dc37df20e5f8a8fcd13bd9fded733dd683cf7ed9,
  0xeaf43608ccc56416a79328c0297f1ae828c62892cbb294ca58c559bbc197ac74d8c53ff2672bd9c18c786d31914be71787e1bbea00b4847fda57f3850bf13dafbc7afac44967779f5e57bc52a2b01f3d11ae84b827312ec12ffc3b4c14e1547ff5884c492bbf0419b22d8817780b4e230088ab0612d4e77569ed18f160661d613e557b903f,
  0x0f0f97764190585d3dc97a5e7a5bea2406b5aca50793ab90dbbf802d9dd27d9b598127107c9cd057abc3d5800761f30fdb7ec0efe8e5abf622bb82d5e9f290de741dcea2804a13c8424bfeffd83c171eb28d39297219662c2d6e16f581774a03ef2dba7ea3d9760641ab5076494733173775ba6513286251d1bb76a11ca382cbdd0d3327bf,
  0x419916505753f03e46a81823115fe2059acfea83647b54872333bc3fc2711c6ccedc8f45f141816ef518a47dbf1f44ddad6a967f00df68e6e4e7c89961439d9881e943d882e769edb9b0e093ddd928046dab998634ec1aa9e1e02dce8115dd6ee1bda307d93df9cf21e9403ba68bab3edc664a1575abbe082bb1dec6010495cb27fe147629,
  0x1c12b774a99b22541a1375ced227ffc39b51b76aeed9592202bb4d37ae725e4908f6e2699902e86208b654eb410aaed7db1e2c0a805d418958c66fa02897d7a40d9114f29f023320eb80c906b1ea4364766ffd1503f32530459fba529b0f27f4ae5175abf8709eb185cad66acb7cb8c4ffe3af32427c5533878fb84340b31a04937bb77824,
  0x72ab5fce4dde05f499bfa6c754232c197b55969e2f4b636fe86f2847450e0dda397331ba1bc38d810c6adf7d5fcab63618c79ac23dfa41de56bf6a186c8acf9ffcc83c6fbc19afa13115a1804cf45b783a1a68d0f3235ec65995dcd20e5851c215f4468cc112049c7a41eb78f8e8acd7cecb7a04a5dead85f3ec6cd3ec253718788bf3ec1b,
  0x6fd61e36d5082e75da68093f1d622e124c5e213598d34187b178d4597d2bfdd1585d7232174f6e18d75fc82ce531189033d22e8aff26d77e0773a00e02cf902eb098cab5e7c66bce6ce695c8328bcef62faf17965acb6d1a36c708e662fc8ec54f0eb3464b1888c9d3759bba49e50d34f09f498b1fb7763ba83d9771ff4be01693c24d2074,
  0x20a44bbfcb7d18394ffa8ad0314f95d8add54ff482ed4d3c91691bf7e32b495be896c19250a8172db69324d067683a8fc21973818aa063d370a402f3ccf5c3fe94cef6159e739e8ec74e508ae37973c638b5118469c7a1e29c749606a598f2010eabe46d6f29e8c1b581bb822bf9cf801ac1a1505c33fdfa8a47d3511b1475accfaac407fd,
  0x2af8ae2de2189ef99dfef32adc39a02379a4f3092b340f7647ccc827180f78fd9f63594f96d334dcc1eddf2bb1ffc5976511b5ec08793c106c8f7081ba3a9a40b89dd72b689fcf9fb5f3cb7c3c3270a26b20f831c3498ac8b2409d7a8b9f0c058a932fcf2473882108e00defe3ae63facf960f128296e542d9d3fe2986b83ae6bc8c2075bb,
  0x79beb51e8255f51d9899e9913b2ef8737e2c5207737b05ae8269970e87d8525da432fe3a06f21ee956c74bb2fdc27f99e9060261535207e05663c4844a1a023c10a51ea9f397214a414c06ae2cd7d63336b798f79576200f7cea6ca8f48de042f82c99ca5adf306e5c8cf40b338a9026f8c4cf224e03fda1736f8939a302172929cdb6d5bd,
  0xcce12b34d6920ed4e98142d88ff426fcf5758fa1b606c05cff2324fb60e45dd798b3705e3291af080c94ca3c50dd01421314f6211d6102e53e61f368d21ca6fafef00ccfaa58825693f8d1c72406a25a6f37c7cb1104c72b3fd1133c6f1353f43a925ab4b1d843487ec5aaa9a9e84fd5393f7d51afe27ff2c1235c8a0a74e874c2a4b818f4,
  0x98994bdf2a20344cd579a283db518a720a7b4c0f51041b3b9d04062c1c53a243c3c62ba42e551d61c7609870d96b5c44e70ddba07ede8c35190792fe38195a20d080828d498b4a2bbf721edea75ddadffb4e8611262057827eeb3d5208ecfa853500ca80de1d4b3c434e330b286d80bf51509811baa8c2ffde1425fe6f20aac4eeef48885e,
  0xab976123619a94f4f464b305756902d3d60f11bccc76ef1223066ce91e43a0624ee9d85781d5508da85bda8682b81d0d72af9151d8ba9a1be3f0013ab219aafd09e8cc8f6b4707b2556a4fa9642ace08ff44eb9607c3a2e149cee6cdbedb87e797e9ab4d0a1dbfc2031aa1b1406fa173c0e83d9647a656ab9540ca7500063854f740968bea,
  0x4a188d918b3bf5d2f72ed99373a655ddf085709717497c4b3b70ba399a8dc30d53aa4fab5d9c5598c5aeb101c16bbaa338b5fb78a521bb0f0a6e71e1fef776492af644cd6e00b9ae0f95f043634d067bc463063e6d868afb9fd06b968b2b56e4f365dfb968d4f5181e44ebfcc15cea68afeedad7a7821e4505983e0581082b1cdd5ce96a5f,
  0xb4b4ba448b0b47502197fc808be6f8d6b172f11b419e66e9e7e95ac2434f6e8786f72bab5299f92009134acfb863b83cf609543a1c1d974275e93466fbf9f2ae3b1869692d7b7faa3287900811309274071b2463b1d0a429ea2cfcd0c6d43d664903f89d8f52762a35a2611e3e9dca4d465306d61db5c3241792dd176fafed019a03987bbf,
  0x0eadc4fed2dce6a37c50670d10af5ec6f2d2fe020bddee41a25d23b83f50d4a50b52881eed28bf1c56bc20644bfaa44e06be18ed81d79091af6aaf27cefc59fe5b695f0655ac7869a45c909f95ce30e08530df7de6469f05802d2464551213e66502045220940f82cc5334abf3686e651b424fea1c05ba6a0ee3428b51e042d033f36776eb,
  0x687865244f4e470c18924070e14d02a7e3c2e3544daf8a6e264d9ffe00e1be9a2749e1b1cef8bdf01d0562ae7997b5a64e20c9d769cb420700263e5876592de808da85375f39eaeea55af18734ddd832c792db54eadf7e4b429fb0a95854a1fd42ff0477bba9711ce0de58ae568ae59c519211743e98b3a3f7337a26a50a314a35b9cf232e,
  0x0821758d1b6b897d7292bcb0e03cfc00f62d314103492cb2b8a98aa3ed54d7062bf62c7bf80d252d437c2f77aa8baa0ca3ec4ae05975c9baa1fe58686601ed0eea6fc20e5ad0c4cadbf3a94a831e7306cb8a4251d6ef24fe82177d983171f9c446367909db4a8b8f86400011ace85699dde77e7bdd8d23e00b30e87721a4c17c799e907386,
  0x90f0b725409873a6c09c12e9e48c575fe03469fe984edd6cf20e1147abdda9011a9702bab3182fa18fbf51bd9607177d1b1347dcfb2952abb878d5c135474257d8b6a39cbadf5d637beac1d3d0e7c23a38f454c288bdf1681b3edc1b3b2025778a3121f451351e10bbf451b33641c693ba0f93d689487f6dfaa5c8d44561605d42ab5b9f05,
  0x0c96e7f8be986b9b9ec8b7d314413c7fce9cb07a6dfbd3ab054630f5de1e729ab4d10a2e8a29860f5fcb9d118e9810a3160c0e8d3943037a10ede19691819b7cd86aaa1c0ec9118ee057962c97609916b7e250558374ade050cf840e31d1867a8729f8ecf519e90dc73e0f5e892f33f7786dcb438be623a49054c5972cac6e28b216fcbf68,
  0xefbd77f3eb9fd481b143982ceca44db10e0fd92f973ba8238c220ed83abf9da5603e27ee4eb4d7a24fa1cb363a47fe667f47fb441e57e7bc42daf97efa4c0aca3c4b39461792ca84e1c4b9555bee196150905ef2aeec5dad384a46d1cfdb4714d533829f009a51b91267c83f532da6a937e39203f1a904c3b49c06146116b65653ce73e45b,
  0xbef438224e839331a59a93c9a84039cdac7544d6128d1e15eca7942ef76e1ea88c1b3bfa934c5f1ece1d6885592aec893b781aed6f563abe2de9232a86b53e2ba425816bd7413a84a16ba8e1e40f8c533f7880847ccd6d4be90c23d0e83020ba1508e97cf9521101c8050554f5a8799b43b6c173b19c3d15fc28d8bdb32a1ce783f9da97d9,
  0xfdfff2d7bfa95e22830a3f800b92e31efbf35af27f7d807bcf8081e6b9485f3bb6ba21b0fb475c236f33b090f2508bfe92d5caedf804d3078efd6f452f4cb63816f254f0a623705fef1c48f3a04ae7f58b4a77ce039740d41cd5e16ef19e1a860b4d91b524ed260d4050387bc4d4929f4e4bcba0aa3bbd0a63d78a2d820e0fe086d4cee79d,
  0x2c01ed119863838ac8bc224da0489b36791aba4cf0d5d730815f46a1cf86214c111e41418c27c3a97ffdc5678a41fe5d4ef58a59e456122a76891355958009d3d0e0525c083fbfd5c79bbb9627ef9b9c931cf858df8081e619fe8247cdf740aa8beee0e1f6c92358f8ef7ffc8d1b39f71a20755b782dd79893142f0bc578c6301b124f7cbf,
  0x1a684dcdabbfc5cf6d0dea9e0e8cad031515c7555dea755483dcf71027bf0c9daf58c4447920e927914441646fba248bcab45222dddb940edb484f995b44ec4c9d89e3b85cf9a545f4765536bf08dd3edf3eb9743171f88b5ac8b2674e202d5b3586f09e1238f7c94b5c33937f654051649eaf9f4c99b3dd171c5b31ce8b0e4270ed450182,
  0xe830816a5b0a1dc2c5bcd388ee390aaea2caa38380bb0d0bf9f985ed92b8792ce61f0453eed8bb7b290f08416f379ea89fabc3c9f5e03e0566e0f44db802a5cbe999f5e7f53234d666da3da2c795f86fc3e9cb9c98a208c7e46f116bb3a3b1632bd529107a7797b619de9c07a56c8117d4101b4ab6bc44e18b29053062e10cc2003f70d709,
  0xe4eb972b18cff1741cd3df919cf34872e96af9d7d6bb557dfe2ccbe4542bd9cec7be5ebed4fd404879ec19e50bb5b29ab7ad5e351907d9cafcf20a9d82405c23db3ab20e6b4e78e4e8e1fa8b194912149d075bee60816ed079c3d9dd463c21cd097a41712295363df584b2e1a0eda4b37c609f66f48e7308cc76f103160326496ad236d5db,
  0xbfaa11489127515c268583b0f3b6975f2a71c85b1d21cfeb05c8324db27d18e65cbea39e4a7de391fd695dd4f6c307b06fdbbaaad252617ad85569f781bd80d6f9ce421b5d1726ac8ca3a8c70da6c2dc8ed0dbe1671368896d85d7ac76ec11b67142ba6c273d6ba45da653d790059abcec9ef3e54e1eb25312a9f0780b0d6efc810ef541ea,
  0x45958cf74bf59666fd18565e39bde606634938716426a14142b7492877e42f381b3e1486a6b4d798c6ad9bafda02ee77bb33110640c0b6f99eaa2f581ae14186fe3e51fca36036d35f15e13d04a0ad12a2cd6210af5b69e8f3145055023e1a1d707c9f2b15f4083faf5b34b58ce53b18026cabb46b1187446cc5a4fc002e58bd0153e09065,
  0x2889d473542bb533877e50124cff0769c90f6e5adadd69fbcdf1080dc99051bd19e0003ea7f1e80d2713b1ce196e484b525b762ab3d35032559c7baf490e2dfb8689b687fcef76e6b1302586b23f537170523a5a3130fcd5a6d9e3dd28c801f43bccabdf975c1b52a0b90054a55ad0f8666fa144fb0cac3761c866992e2a05087b2e27c3b6,
  0x783fcdc7ed1d314eb3dcbe381cc48f930e8b16b24e792a3d69c6823d12e38acda73ab19e74e49811b23a728b64e23a748d2a255791549b41e08532d027d9b3a1c70ff2641ca9bc3e80780436e706c2d683ae407d698ba49926d66781ca7eb21db3e105671bf53781307edf9573ea582f261dfcba81dc2df815a9c5ae74286ad6536998da06,
  0x7c2862dfb7e0416d1cd1fc60fd24b1a0bc8c4bf3af0f56808665b4251eb75dbfce4ef6287708541dd6ea167833861ff948fad8bc452968c6b5109216ca86278c6e47da8d58ba1fe49d044473a205786f0303aa0a02100fc39086f99c07a66f5d6a9aee457fbeb13bba089eb2bb6704dcb899424d0e6a43e2481f7c3807ad05234da0139fe0,
  0x12130a2d1cdaf610f635b8028bde75d726a008990d02725599658c3bced6a006feb40e07f29a5c1a7747d01c254163fe5573095b536ce22ac4446f5ecbfcabf78ec7389397ab19a2913b61be0273594a61226e225013f93fc18e62ed360e91eaec2d9cfd39c1e53db07e51bf9f529a1a95dc0b4c8e57570fcbcb0a5252c018bf7c52a83ed0,
  0x6acdc38474be93e40c31abd1ecb7900f209d36a93bf9412c03e7e72c1f6f87016268e5399c3f8db95f9d8f35703764c1c5025ab35c5856cd7eb6d7384cd59c2f35eb945b828271ba2f05ace873ed3e9e5be1761ac39d94dcfd4e552b44d6f444dfb9b4a6a7e7351508cffbcdc022927f1ad3b313b06b2d2385c6e2f2ca12885649f9986240,
  0x3cd556cf2574a5494f9f46631dce50e2752f68e944129f54ccd3c9733bbc28456706f140fbb7301f5fea27463c0485a35a5b154f0383568ac6377222d3c4431fc8cbc6dbb7f5443c95b5d7ad08d0c6c7e848300de8496596bb793b96f1834e75f6e4c05509772f5bce6cd1785097d15266911fa0bab8bd74648b1637792e340bf699000cd4,
  0x66c0c3aef938b2478a313a1c5dfe5561c5866413c195f33ac0ef287b52f276976ab317b1acbebac2ecc3f92e568074346868111becc9517b124981158b50b0881c6a03b43083028e981942a1f663adcd886d7949c2b78eb80c9031fea0b0b6fa95633135250a1a3228ac9130ba6eb79112dc882d4f8c493ab249f4ebdc81c930b155bd758a,
  0xfc1d55d2122b207fb8bea52d01f955fbb292ecf292ab11e9beb642abe890ec571e4b826edc19aebdb31a37dd300526d02b02b83d788b5ccca4e6df1153135124614f7e194771e58729cac980f2058cbd7812562e00a94f635e6c8d3ca34ee4968ccb31cc8d0ab2305969fdfe6682d94af3953ded1f07a3f0f73864c3c22ac4d38249d40678,
  0xedc8c3418d549bc51b7afd495fc1c728a81e157ab3a5bf271316e536e5dc8c49f141300f14ebd3e074e39ebe96c8c20630c9dff639aa84335d4fa5a857218d284e98746a7e7e67eedc3c7d64fcfb67f469911152c4d8d3804f52010fdf1c9146ed71ee26f246727aa6d71317d1e7fca650ee9ffe163af10ad2a0cb1832b57b2eb1be0eaad2,
  0x5600d3c67221c8482e98e198a8089affd2012c400df176e47c3539bd5f209239e1f3d92a6fe5f204b38277ce7fea22aefac4354128e78945d67a9b20b452f01f566aa471f5a4387e9c75c68aa33bb5a8cf490f58414514d06e8f11d09518ffa1e179f16b4a70e8c561150dd6b47d633f3fb75d44a38b2a0d8d574046297c63f7a1a0feeea8,
  0x2e83e7700d8274dd4013c693e7fc0e59ffebe6bb53e21eb8ad276ac54eb4d89028b308a744337ce9e51036f4893aa682f38ffe4f54295d865f842db184fcd25d947454fa375f395c99a48e43a6989decbaefdc599dcd8eddf43e0f5c04af2a4599812455914a308643e5040e43c818a83e194acb82dd3a64041ea1375375d12d2a05c24687,
  0xd3b33395a7885193e577dca493f877da03cd55b3dd09c23f5d7cf4071fdc9b05bde237de3f5b76c0530e20b16cb0774155606a06a422d9d6a7c5acea92dc3dfc884a915eda0615a8243f6547c0e5e7d1690c9fb67359e08fa5910a87994c0920095b93e257371556d29aa248cdd1a99e43df706b86a86961bd3d7014812c59329f943b141a,
  0x62b74929bd551c4d5401a36b5dd743c73d1fb01ff2405390080a6179bf86f8688cf70e6498932a5eeb5e618701698354afaea4075b5f26f2e5cc94c450149a6089b403b07912191660e36830e435087ba630f7ac406d90c97963253a88be7e7b10d155f4443f967ebbeec3045bae264148d48a678ce2d383cc291214004acc57fd157f5297,
  0xbd9f67b12324d911837c61b5ab80b7ca6a38fe45ccc4f3b22b13620f8dc717d5718dd87423261fa2912d42ab9425072522373a10109ac409092986edbf5310c1355563ef722b2e71ae64113df23f94fffe3466149c71372fb96c08380ab6a04c2317cdcf1cacc3948fb50c38cf49e69d38ccf7afa1f67c6407bf7053fa007f24e9242a0246,
  0xcbcf8770884d75b22afd220c74cd941d386d481a0b6356910473dfb512687a56fbe420199abc0d82d56fb376af1f68a94f01e3acc9bec1e7550c77007df3737c5f735182f5b23b58f4deff9fb8e2db3497a8eab9dafac4dc1f606beb08a65fad1641e42ced672519e71a218a44b12efd5d8e9afbc1bdfa2ad397f317b500443a55443416a4,
  0xa521d1d600b5da5653ddfc82a24e5758e82749cbd3c06d1e15ce41c11fe7f7a11bc23fd567eab1a4f63cb45788e26c6a1ad5e71a87e8c783313af06d63484e9cac3aff7bbd2bd13ad2d64fb30b330df158fc8f6c2046efd34cbb201719653184768c6db3d132356a95f03014b0c2b635776f4da21d70b66aa257e1ebef34f46295f7a55b2f,
  0xc86885df8a5626530fdb83b52565fddb12a2705a9cff0a10b118f814eff29c7bc847c3fa44332ccc53d4059852ac2adaab23f6b1a81be10e7908eb8da87c1da0515ad055e8e1085e297ec11a4301ff818fa88a93b1cfd045632edbec8b9d254b25ac6f475976bd6f7ea0d12cbf0551436a5fa891c270ed4545825997b9497b5946ef068593,
  0xd5f181910cd8a91b4cab2dad52fb79f90771ba5f98debdd43c6e0e9b58e22ed1e6fc51781c13214ddd38f453a65a4973bd53d792bcfdc11e3d09177e178e2a62e167022e290fd81e1353ce1662c52ac7f334f57c49a06e2306a6c1ca5e8a674e746fb549e78043ddec58987541561ebf566e71eea43ed164aa436efb6152f52f426ab47d1e,
  0x63d9727367a8587849c583ae5731eb3a9ee71dd95fac4349835b7d377c8c8034a5cbbfd3efb9b8a3685423b09eb4a8dee6483ab58c4b5c553f8d10f6ad17b4b44404beca515bc8ce105a7fa800a3e6f86abac11a79e29bfd6d67bab728aefdd0feb2b60969c2ba0ce0e78b55a49896d52b7b65ceaded60434ac547d9dac86c8f96c8bd3922,
  0xaec77e2086a305f6b60911ca331888555cfb07bb38294167c252beca7f747c37ef0344c288ca546349d5ca17e55b96d3a96d8b9633710a79ffd0b5a41f50cc08b5fd8bc6e61fcdbb6e24fa20cc641ea0e57c6d400eb70d3ca6d56e6faae90885d37b3f073c402e0aca23410ca338158321923d499788b6faedcd28df34c3e72818076f7241,
  0xc640d3152696e1cd0ebeac52679de769466867508c0810beab2da4afa75fdf14513bb696c8dd5cc8f513151ec37380538405479ec658e445038dbe3d1a891ce3e918b2bb380b7fcf2a0358202cd90af4e81ac8a6adb5649b2c5e4c68b8434f968d0d6ebcf6e1fe6ebf202ef1e18144626a33a53473f37357828fe83469a89ca26120b1bad1,
  0x9cd651622e698b12df03d5c01847f35647e0e065de391af7d1858da93f30aa990fcd4ae170fc5d08c2256dc6fab8782307a9cad85e1a7003fd48743f7b8cc1945cf71d83b0800c7f46180845c6a5d0fc1a19f82bcabe219c7d4f9275174f94dedd00441a60bd8617195d684b6708e68fb86f28814e996c7f3a6e13083973489a4ae0b4547d,
  0xe6d7da3f830b8a206b74618a73c3f7d9818050ee7285f97e4f5b24acff64050ebc79ebc44e3b94aebc05d57265b3ed7402545f7e42f874bf97e91056a8dc029b7fdc124d3c5a9d4c54c319fbf134e169b1e51650793d905c37c34ec35698b3cbb3a4b82fbc5f8dc1c9c9ca4bac0a0c0d037a976960e52ac863c46dc7f8fe2d2417b33f67e5,
  0xc4ecd7f406e804924c79e2c97f22b81a33e54d4c572ab5306b287eb95e920a4f83a9de14fa1d97f771ccfafa7d5de4f8cf58934f3237db4d07f048593a1cd8b8c5e80c0d5cf6d239ee84e829a63bf80af27afe07a0b5daddc2024e603a2f2a457c55e30706ccfda9327c8c3cbae6f09d05ebd7f5dc8c45ee7df7aea9dec3787fa366a320ba,
  0x937405eda6f1b1f6c896f4aacc6ff5229113d0ef435925aaddb048d64b2c100aa15aa498f80f488ed1241e83a57d4107d27149669b1d80b098d23aec06eadc6f7cff2f7be2fbe3b18718a194b80d42d6059887bc5723368045876a53e7a14611bb2beabef9e8681854389968997b054a45a1a3b7ec205cf236ea070742700cf530d0af8d0d,
  0xa4c865fd434114c06f860d4bca477cc4ec5e22885d238a68c788335dc99bdd23f86829f3a4b5316107017cca59a3e754034e958dbf890bf8b15c7cf47191e0800db86db296dca7a59042b603de1751b9d81d444d901a1bea53c5e59feb9e850679672b3957b80f70ef17cb20b159721ac15847960bcb5098a5b25e0dbbe5300d178626ea0b,
  0x6b738300dd7fae3484e7450d0e5f7540e6b3983530e59a97fd588e270989c3a589ec4f1eea2d58ec8f346b9142dbffef49ba83007f85b84ace9c55f984018623937f979e219cdb53d8e58730c8e32eda75d4ece24ad2685cc7350877756f9185237b94d09d239b35ec1e8d8b3247f7166b598a2d6fdf52eed3429858fba240adbc78550fab,
  0xabf7533a75cdf598a0ca8c900a29c9c4c988834737eab69d08da60f7545da8811f1b48b3e44ede33e51d88f0468c8d3c57403b2543e6f323164696128f5553a20123147ecf6dbeaed0c561ead285cd3cd7ff3d27e7ca3b864ed16f3b09df06603dcb1bc577b07be45e156bb117e3d421119f5b93681ea2ad4cf6db2ea95895ef5b64b01d57,
  0x7f5384ebfeefe8ce7958520d4d33457170c54436fe7ad65e132fd5c7f44520abae2cd8fa78f24982c911844679911cd0d55c98f662d2fcd4c4c85d0b0834cf6dff461503f22286d782de71c026d869078c052e492e8e74fbb32039d4ec687479491d844226e55686e7e07f69f4ccf4ca716ee84f65ca4bf2b8d89873e12055f9b9b8e98902,
  0xd9c6f92dbd5bd340a05ce03d1430819a121ea2e8223b4907344dd2cfe0a262b91371a9335176a5378a73b2a3c948a0386d8c0790a249bd3a478b30653a68fc0b59c1aa40fb2184938c87199069424e779ddccc7cd7df128a73695c0a4c425a5ed50f92f978504da55ad4cc8ec1772105fc0727f23646917627a924321536883a7204dd6f55,
  0x6fc60414706db20e88cab72d7e83ebf7bb7de775c988945b7aee1d8325a30193eb272a7abc52ea8aacbb38d30159b7a8f8cdf75563064a4869c6b7bee0eb0d5aa303b6bf61b5b58922f3534ba9a438f57587eb0e1a83e583542387aef74346789c2340f0e252044612dadc507ab61341cfbf9348e3aa37b0c618683d21bf269bc42fa813eb,
  0x849ae62b4376928fef6bbf92a03a97deffa1de40311ef9f18489397d5cd3cf3edcc01c2c0d7b2221957085663b9b4b7069b979549263d541ac63264f97f022baa89dbaf101f681fa29c0507af5224bc254750f942b0084bd006bcad2d876a7f0917892c57a7f788fe1bc74d3abc8817a4a08f800ed655f79daf0c1fc15431c670578ab3b49,
  0x2987a75c9071ca8010c2881c2ad69e9221b9a1e282510c606107173e3f64b7aca2c6109a57d2d086923c1596413d1374d264a34a4b165c8b5f136bf3edcadca0592f9e91eb12c2fb89578fc20b223a7fc95a495b9e224e93d6cfc426829ddd0f61c1957cb0339ececed94f2a5446c1d7c3ee30ee35c1e244ca1741c279c13978c81112b17b,
  0x2a63c449dc76197d9f946004041999bc4d64150e3e1d7c612851580ff5a366fbacb7c5e5f0eabeee3ac201e5b4de062cee5fd25eeb128176474e30d5e8af9b9d2a3bbfd464b45de78754c77bc33a59d33d62ec418b70ace9962fe1d0932f9b2a409c43e547f6f836b25fe305407971a332bb64f82810413aa8e3153c4d910bf32a21c6dc22,
  0xed2b2c9898a4d2342c7432803c8193a36eabd61dd02f888747de444df08365a5dddecc0b2e152b18f334bc07f90b76ea675835aedd1461ff6ac9be6c6ce26b5c8ca4ab59f5af0ca15cb73fba58a6225f97942c94d1f50f74a3c67ddf9693078df61cd808816eef172fc06c36f044e5a142e87d5422c43188a7ba076c5f7f9885d9e16cf520,
  0xedd13c2555f9463ae02185b060ce7c4f8b324dc12604a409b6c28aa43ee933df2bf3afa14569d58c3af82d771c7423823d0982bb4560f272b8bfdd0143f453edb641f3e0010aea0b73cf8226eac07e1e926cba48ae99a0ade125b5bd39fd85de1adcc5c0b485dcd62004562fb46f182104c83ed2d86f1c30cee1614fc5ffc815a12220f890,
  0xa8a280704e80fa0cd8c416306bafea9e4e1f576a3820548142019ee7d8555928c524bfac5561a0eb0fb0ab67dcc334e425bcd71778325e8011f459321cf0a0e31e36f52c5c7db52c52356f77d1bba52e50c6b59a538f03f3f99bd8288cecef6e48f7dd61f70275cd789e999154cd6d5542fedab3594eb8d8d57d8be1fe7700879b6839e73e,
  0x41013108a3b4240dacddfceca6e10793051829d845b2545d9a8bbb7055172c9d804bf1c8e3b3f1750f9376580f7eca02772b35051179fe6b3f6684e843c931321e638978a63b893055533010f62298081eac08bc52998c9207024abf97bf7f98a55b29d3968e541f74ad6982c2e5634d03a5fa1ca71438472f3f0c575f13760ba3dea3dc14,
  0xa5f3ff652f3a17ff16e33dbdcb14d9259414d39bc6e98281360594c8b9ce773350e17a61649bd3f31d3bc00c338f71ddef3648328f6a851e9c23abfc6f23ae57734c81b37d0a4118cd64b5e6f8ce30fc4ebad59d2d49f551ddb5b5d02097246c7aec991d87dab970feedd40282420d21816933a3192d4a6e220100529d789592385ece0e14,
  0xb9c228630f5ca27cb738f5050e9fa1eb51a8de2f0c8022cfbddef277494a28482bb6b3279e2b658dc21dc818246e42127fcf25bdb8653821f12ac8bcd0af7fefa05937c64320648f27b0257ad5759a889c84cedaebc8f5c0585e8fd57d7cdc69743fbd1ddf9784054be7c1086ef26c712ad55fbafe299b20093af7e8fee7e45f2bbc55d79d,
  0xfd89a84516e9be7b023a84c8fed0875a8de9a8e114498ed9ba406bfa03636f468f1edfb7e93f0226eff98a47c4064d92fb71c4b7268abdbc9ce662f222a03c271e2868d692f00b3ced30194fc7e37fb3037a9894b99540347f84606227a839bb0a9570aa867509f4445beb3ee2f4a9d601055b04eeffecb548379a54eb9266ec65623c67fb,
  0x8e99a2370b31fcea183030ffcc5610d6a9e0a7eab52d2136dcd18f0893b9b492f5afdd7fcbf152c8e0ae0adfef8620860117678744d1f1bef2156abb36f694cd0ed186c53403d0179591cbfb26a522af1c3dccbc944ecde4f61a0958e429132cba0dfd79cc00b3f09afe23e1d8e06c58f20aa56a55d867ee3ac784c93e381c09ed8e32810f,
  0xa925f1394e7cb1376c9ffd618fc80c1294e9063465025aeeb13b0813c9bb9b0d6fd1404d5519e7313e246191ed6bbc6731d83241950fc1cb275e4543cb52e189392b6aa69eddf48af74a7472421a4897eace93ce12f8b7ab7d59f57697058290d990e5fdf723406a4a8f57ab876720a43637f844b0690fb1ca1649b0d23529dcd39918c0b3,
  0xd3f8b8fce39460a0519ca7d9bca36491ba4482c4ce5d40203b0a84005fbcb30ea39805d77215cd9d44b9cc0e3a3e441b223e9bc358030cf91470ac09f9adfb066eaeddd07a6f39953ae0617741951ec80ddd587f07788b61e516013e0ceabd053798669de56c1048b21c5370e758ffbeda17072246a3adb3b995e6c84c8a190b7fb377d92e,
  0x190ac193c4d51c381d7f2c3f8978c5372faaf5c46708cd7b5d7e9c34f460bd57f81e6bd15a5d41bf4c36b4604b93418ec8aee74eff50b63c1429e90d264e79efa8d1cd9ef38d9b7d2b3273570e27836ae7a2b6abd8efeacd4b65f13d0b734b13d008b48c8846f7dd3483d2dbefa585ff9b9d409a6ce5b2f1676745d6c17400d0a6edfa769b,
  0x7bfb4c68a7405fca237af5d91c23fda8db5c919be731c59fa6de5553a5283853d0bacd32b865870924a24111ebf81c25b9233dc406d863bfb8f4a1f1e898ea5e29dff2f1f78e21cf0c9f4aa4e37796dcec47bb64420861fca3efa94b707c62f7e6cda8e6c816da9468faaa1bd02f92fdbc847f2dbf82090ee8c07b3ae0c0e97ddfe1b1728f,
  0x406b4d6eeb19b0c204d15810bf0795d3897ed03c0713ed76d0777a8b70568279c62879a6e275434a77751985877df97a839c073aa8c0271d6a496d563d073c73bbb0dd3e2aed6f7472b985c68411e1e0d78041ad3631226675c6eb31dc32724d1bbf5c14fbfa8f3b12b7ca89c8d56d1df4c76527bee5d74d7fd5d738bc065b3d6b2c5e5345,
  0x8dc59c8298c21f8b1ea878e67e0583caa2bd5249578af6ffcdb5b9612207ca29651bd3e0856bd2dcd45ded7261136d3fd43f9f25d46ba255fd8eba38fbe13e3c63f5ff55ca1ebea6713a38dbfbb893108e2d3f2d922ee46164ae4ad21211607ceaff827a18b7c6b5b2b14b66416ea2709a17a9336e89f8c226337167d544ad97e0ae08d092,
  0x6354ad53f4df5ee263a3963f3f7b95dc7d8c097e4088647962315693b321cfb13f285c019088b80745e9418a53fdc12574dbaae0bbd7d1f7c6d81bdb3c17b6fd78eadedb6b00c07b93d13789f97d6c28b23a34ea2afd11bef54ab223ff6aa4fdc345f2eaf41615252e802decf82b401c4829555e725b5de944d3b4f520e623d3a61de5686b,
  0x8cf5e969b589c2b897ca4153d110604235d088d778a3ec810b6d3402b550ab001d4be7a571dd9139a9cf2fdcbc3bbb313c39fc4c9181ed7cd0c9a83ea10ff78e5dd0a3f8c749c12abecf9674743dafccfe21622ea25b6e007ae0ae6fdde60f6ffe0406b6cb4acf17870d641d47ebe66213334c90c5b8ba7d2418070f5b5bfb7d29c85a08ae,
  0x19295c9dd3f0cc3c988a1b22ea68f2dbb95dbf2a84f7994707e65f91097c6ba183a22a87eb364a4fdb92f937e4090cd2ea58d53f15d0d56f033d8711bca46fdcbd2c8ee9a96047dc04388c2059071ace2e9d2cb3e2379aa2e31b37261f09671863b062bbd7ceec23a02ed46e2df9f6b11a155b2fa907751cd9eb1d6d7a443ab54e54673809,
  0x263779df712f077f97177da092714880e7e29e1e43fa08000766f33e195885612e3e59d9a87fc89fb78d2e1c16fa9e42533235e776d0ac73ba0e8a766fd822d771ef8e73a4fb0f1e23a7cb8f684039339dfc162e6c953856cc24c1cf8d2d29df6621eff0d9e43a804a94ecde338c7750f774c12eea9a0c438186451e387c4402d92a27c5f4,
  0x32c18f558ddb292f65de24caee38c9b132c6a601cb65d0833c6cbd217e6fd82c094b62eaadea8dfdd100bcd7bca4691521cdeb9f23b4f709ef78c9794742204be80552ad3aabcc58b8597dce21fafef8e497da2dd6fc252a049e5a747fd52a7c42f1a117dc736defe659c8159b44905c01f36c711b8443e676713172cf2f642b13c42f3090,
  0xcfc22ccc005bfdc716b24d3102b078f1d84fc6dfc7d01bc3c5630ffb46170b7e51c22ab115cd89abec1c664bb7aecba590c2d7f78a1b6b65e1c38ecfd75185774ad4b0df1c08f7e2f15c7c3ddb8f8bbef1b3229439f277718abe9e01be3165e3c107a1e51f019a7910f5064a17892d53614f4161c95fda0c0927a71208285ca97b53a3a36f,
  0xc0f70fea4e930b2d635fe3fe6dfde33ab8973d329b818e0c3bf2c6b2068f01670c1dd07097e857c619c3311b356b74348f288066f3df6144d45585461238c4b2f907e59477c4089189a22eaf1d22e777f22569eccfa5b1ffdc9da1bbc3eed2719c9b69103598a85a2137dbea8afc87635cbec791217ccc0725d2d9277af8ebdfafea893d9b,
  0x4b2aac3718e4c3b5f1a644734b55efbaedbc77896e7b79fe67b2b9c01257852642a20b8c72fbc97aa2bd2baa8e79e7da99fe1bb9f677ef4d706f6180f1d4408be0270f143567621ee61512b77d2ab6ca46ebcb6b8487c914340b31e8eda18c6e715094e57ca2998092e7dcc602e0fbcc8b81182c95f5e6dc88d32812db2fe6cb81324ffb00,
  0x9bc893f46ccf70d81a0ab7b68dbec144521b9f98eec1b4f638a4288827a0640ace234c04640e1bf525e31a727f7945534a383eb737e20d57917d210bcc8be6543c0b1353813e9e784429cc056d682ac7ef937431904f92e46414b1d5faaebec6ca65778c835e44e35b6007250e0b49d9de9c04b6571ec41dedcba1afe8fb7da24c2ba99191,
  0x20be0847a9f3361196cc503edd81632ce48e012e28c341aa981560f114fce8a879f21b0612f64447e9b92856218436e550854c0b7cf8122eca97aee7a6031d6bcfd1f3c70b7467eee8e5f23df88a06615a1f740d676b97a1aecb936394080ea20709086924240272da18f63bce89df1062cea7e13620178fa22bd3fc0aef50e9873cdcbaec,
  0xab88561e0c66ad1138800dd9bf7ccbc4a267f664852af282836c3892f6f2b17df3bdea6f8865d70b4f9edaa01eb1da869242ca59462216e7c013d6fddab24a533af563912f8bbc7c43f237fd3e5ecd237937c23e47afe9bf9456dca390be3bb1588075f20367d37a2ca7b127161e08438483161b490df988e52d301f2211a70936abbc9652,
  0xde313e6b99d350c86fb837e1563a8f7d11ab8cacb7b8b97816189d41f97afc6033790232a32495f828803afa7abf7cd8bab531cde499a267017dd5b86057c6dd487f8c25f95cb03487f0e0913db091fde650836ba2b7e4e19b68d378059389fc8d458939adc8c3e07a29ede9d53bcb6b813ca9f161254f9cf36a63c7b63f9f770ec2760e80,
  0x91d971a3529584536509526450e612fde01ac415963230596ba91423d3ec1794c2a4e937117340ecd0116324ae6014a0bf502086cb6932a6a65250ae091fef9abe75ee92796ab68a8f4b8d6ec982e44770131ae08f2783270ad778be47c913f533ae797ddf2d85b4880fe31a2561694c9b2452c5480f47ff2403b1c47b4cc4dab226424d9f,
  0x364e2a86b36dc060ac2cf0baae27f6fafb16c0cea83bb06be64a5b16f4e51498f8a3d5f572d389efaf5979580b310640a7be46f8001087a4b51fb90e7adced94a5c37d6a447dd0e6b074f8f3adcdaba26be9648d070c485ac4a10edb721c102b55eff0b9c41e0e57eda13e0c69b45b7af859e9e77ae17ed971144073a82c37d98b58e56555,
  0x40d3564679448ee25f09985b110b18e9c4e6aed6fca956ac5f7b421e2851ecb0912979c58c3b0e25270c0be789cdeb5b10ce99713643997def526ee5d62fcb2a75aa42d56794259fa5fa9afe0d8368ecda0f91a7eca555d14f9f24a3baf55219e3ddee1ca6bd31ba22d20d99edc12b33df7f754931dd9d8770ce832b2cd1c5f1ee7cb81e75,
  0xadd484300d227fadae3c5ddc7257faed2d05461b3f46f9fd34c78e2657d172da9e42e206c95a990958c089dee83057d0f64634076d67bcf5123ed15e3205cc6ca076d9948a1d7749b226201ccdb790a3c7a234120d93d0190352351bc55c086a70fd0ab4fa39e635b8da94d3ee28736691441e9819d090d84fe6971194a7ff7aa5455c9ce6,
  0xfdc101df88450e9820b7a7eee816b5b54c461016c8d9bed6ab3311be0139f50c0139d5b30da1515196cc9c1f70ce03b890a6f79e4c37be0c27256941a78fa6d95479ba91745bcd2b222fe19838de82e618d54f958547ae251a52230709fa395fdf6f82f06732e10c293bdc665d1f4bf9c80e287f47113f6a715795e23a1b0c96cf2caae741,
  0xaf0a88dc1500934d5b9057d03d9d5036465ac37cb92ae8915b4c3339096b59a1b37c89901f84727ac4ce7d4070628f4ffbd8a22b974ae9e380254259e94d1bb96727bf51daf1c868c1a1936d3e62da7bdea1d6a340f0a5f3312d680ad612b771e21d460df4270acbb32e8c61a1baefab229ee159b56b0e3b4a434c34916b1148895a262483,
  0xede7f946f63195496792d86e47f7b11abeb8580b4f788b7da7aa72bb83e6ad69c0e150627a5c2efd066eada8020e0b421db120d58247ec35b198fddcdb30f28d3718dedb9210b43e7bb664b30e5f5dc84746faa4adbc339ac15de71ac2db6cec8c081f246d938c76bd59b3326949305767f665e457d394a0944fdaef858cfe831a1f3dd6e0,
  0x199d8d0c606cd7522b408bfbee1a1d8949c9e79427779259793ff8237f3a04ce61d52345ef5eb28170248a716c0c93effa074d42f26f3ba996dd33d9db39a136fa4a0541289077d680f96c93c22eb0fd522169e12d76e6248b161fed0614b43c14125a439cd5026eb46234411414a4e4aab4239d8eca1e11af1f91e98e490f913b8331d788,
  0x12b3fec1f9798bf036f2018f990c66fc5ca46093a46f082d3b8559be70634f67a9e66bc6706848eaa214e2e43c3af5881e5378b11f518f257d6849834aba44c0438123af1da68b3442889404f09d32c2c31b0eb0ca9307f7bc7af7a85e44aeea022c9efce7453c1275ace0f3418dfec9da7846927cafded4c333e3a1d90d7112c86e284621,
  0xac09a291a0c223bb1b7e8e1174229f0e3569b034f578091292b7650f3087b226d5fc84cb20e57800c81e3f842ace333ce8bfde166ea1888c0ba593141531f0e4b4c6fc05c4495fb243450e2b13778bfaefecfbe937e246596ece73de94cb574cc735e8bf260642bfcf513dd6d11ad31d210691fa8135a7096ea7c6493e44f8022c22900702,
  0x021b19f24c101df49c31948ca0f3e7fef2cfe58bee76e6fcc87954e8c99f881c409dc4333b182a6795024530ff3a1b723184fe505b8d1d2a6b1a63b5d23ab0eb3b71503ee3cce04c6a36847a3da72799c4b58cbd736c044da3074a094f9bff821e89827aa1bfea26d2df0f7cfee7e831f4545cd37aabd154b5b57f73a1489b4ebb4f1889f5,
  0x7b567b87297f2408749324e5dbd2fe4c91f6a68d4909c1b2a4b643000586f2baaeba33770253f97a3f9aab95e1149ebab94962680086daf82ae28c8b16fa18ae1ef0462daafdb8653874f01b7cb2009958ff04fbee8bdf16736115243b8a1e201cc65b2a716689196444d7f304e4a4bf32156c1f2c8eeb32bbb084b86ae4583c1001fe027c,
  0xe26a9afd38caa12646fe0bfc095f59e0034eb326ecd3392968eeea1c8a0a6af097405c057be290fb30a12f8c1a97b2e7703eaf24361f4be80a0857d64914e6d4ae6fede33c650b48a8af65b31252ae372d1926b085c8e3c005157197ae796b6fa52c57399d21171aec0b35b0a57e7b76d4684a0d6a4940febb8e39bef9ccec107daaf7b0ac,
  0x27e77b295c57aa470c0ee1bf5dc7ef2521aa74010195cc718361232d58efcc9bba5b7b1fbd3cfd37a9ca972d3441339ab668d88772bf0e6648ad8367ecaf079b746c50fed49cbbe5dc650ca7ed5059a75854401ae4b2fd111b7123fc2d8266fc286acca3293879cd8b4dccbeb52f1a6af55e9561c93fddd52dcada61f1868f4f1330e92c71,
  0xb27ce981b76df3193add701ef798d2852408f696eb9fcaa43b437c1a839d61cf01f1b2c4b59291dda44f9e0dd4edb0a5921715dad243df043c1c0f82345573ee79bd4f94bb2dcfd6a165d941bc07e038af4d95acb1cf743cb6d9943f1def603c3d6279bd9ef7bbfe11e87c317fd0eb75602c743853373a8236eed1563f7932ac54c39cb7ef,
  0x92d33712917a0c590d5cd96925fa1c8d33bcc09da31e5d77a5c529b3955312ad9b39bbbe48a58c9dac832f0a0ae96c0d5662c51f04a9a8b55e51c10f4442a8f6bbc45c6844dc559f1d1fffe0611bf3840e04dd9b2b643c62788b8e6a023d45c9d6ee28b6f86070e0dd5ec89e841ee9079bdf68194370e9d9a018cf600d8fe0db784ed8db08,
  0x0f4c3111e4c01c0fc8ba0273355fd3547761ab0a4c3e67d7a40f0e3b496ab3778d090fcd23675f9bc1b7e3a7fbbad5186d776bd4f5be673372f97391fb44218ea7d8a4c7ce62120f4a701831dc2281270d3d186311fb89d20d0b11d4b2c26b5ffaf86d2c4fed9e45fccf8d0a8c4d84e88b0ed7737cb846c65c403ab6673a711c3ba568bf21,
  0x026d61e16871f2ab05de0b273a600966e8556d533cfe83b741fb7db88a295447d31caf85f94361107d819424d73268276b99a5b4fe19e225ce357818bb47d3ed9d94d561faee8b77698748230f21075f214fbc582cf834803a4d8b7cdd89dfc4aa035f7681e2bdc823dd1ffb504bd9299bd1a70981cdce39fdbbd566d2e75ea43f2c7f5668,
  0x44a07b05c9485be6d2f999217cc0c045d10496ca2a047de8bc5f995b7d1e091711448c23f1c1c70f0673d040780f380b65348cdfe96938be2dc1f1d7c0101691a3f6fcd9a7cc7f18e0918f1e3c2f1f7f4f4c2a7c8c6355f0fd7b9866ee6e060d70c8d367cb29afb0efc6f8bbf2a58a5287eda5ac1154c8181de9ca78a12d804ac7ad49fb12,
  0xbad3ba19e071d1ce751521b2721a2d2b21fca3d5c25b0c24a199d57e446bc6c3589f62fc4d83b66ccba1ac98294b1569afd444235066cd222d6d72be8202bce3bfbf7163fd46b644fe1c45b9c92ec92523e6d0a096d51dd698c5e7066839ce2f50b7dca32b9134d28e98f968f95261b092d978418ca3b1042c5ac683647af36080e0f50720,
  0xb89f27186beba13940162c47f91a7b0f8f4d7eab5752d1f17794da389fe4ff378217a7d4fef7a974b0299775a3f88aa1dcfbe54ff270dd4b863ac23ef9d95a670f95f4f40507d0872a7ed4b98173112cffce9ff78b27a3d947956f9ad51c1f7090b10902b08b95cfe1a6d1c6c8d0949f77fd361e93b2b07e4bb9075d2fdd45ee7c551d5a9c,
  0xb3eb2ba4fe09eda86913e6ddcc565e085bd76b41151c9ef64e343b204a7b134fbe835a2928dff6c20a357012d4047166cc19afb2fe8043a4494b895b15ba8b2426982ad0133c3dd619fcfd2f719d77f155004e46185ee5fe6f66480b4b2490d591d651cbafd1ab787c7faf1d27ec8759c3efcfaae776598343b8b99893ae43115e909819d2,
  0xb1d77dc379a38b7b476a2cf93cfaf2e6f40dc2960669fd06969bed2578265458cba11ca11f1b746c6f93244b0b0e78c4c952ffc356416d026c3c36c69513508469020af52236f1096e6c7964bc8cbb3aca3b4c29d3a2052cb5e9f4b0c398ca142cb0b1ada43496cf5eedda3003b5853d71089817818dc3aead469af9fc10c3a70f8afc90d3,
  0xd2508f43165e5a8632f70a22a4355ba40f575e92d97aca04b89de250ecf63fec9f5e2a324da1c18a05ffbd31de45018526f6c369e5f4819098e7adeed5469bd680cc81822cde80d23dc70ae4af1117a994afe1ffae70bfb361334ffa42655586211b90f9a606485be2d0abcfef744eac3421a1d0631a2cfdd2725551a34fd29f9a3eaacb7a,
  0x90adbb7453fb9c6fb88cc05892393d3fd52b5f868f819d3e9ea04224f9d33dd50370f4d8a47ea7b9231bc0a85f8ae1482629ced99c588d2edd62efff2bfef4f75f5a9c984b17e2f3be7e6794d6b4ca47d186bf960c8196ac18ddc8e072977426a56682fd542be90e1ac450e9ff1e41964c18a7864b3625b367fa920fb3ed04ff8263099486,
  0x23bf14e1760a1a12397c8dde6b1fa714940373bc264693ccb75a5cf8c0b61373e5c363e94ac7a5204fb7b55b7b27c74505494a925909b0c5a4f5c4fc625898416ab32e053982feaa3b26b27964f7a115c7b4afa4c8989b02c8fff58a5c773dfacf2b913d1e43dcee12bbf104911fea2fea39d30cb6ae8fb7773fed193598f3b3de14314eba,
  0x9dccd8faac2bd03cbc37d59f852237f3fb5ebfd6042d5340f195412671de924e74596c1eab0680d821dfe65ee8971592857bc4c97b72fb9b0b8fb06c0dfb05b1c410191ab153d3e55e6c11e76c82dc22f2d3a2847372e45776f11b970189f6d54462512373e99db306b398d8a5574eadc0f8d9b5d7f14b7598794962ff01feec6eeeeb77e4,
  0x21d11f29c2dbc4090aa24a15441b5e71d361ff339d80db6ea59a8d0a84f123142c304cd3b8a375405dbf53fcf472d24506b60cf7ccf9f38635dd0f44d1537cca4c3556fa76356e74321088bc2d4bbbd05f116e00cba21e660791fe2d127f76d4c154352db4adc029dfdcd15dc34d94a65861a88c07bab6feffb01d7e4bc1878687f1c10468,
  0xc13df4f3168e3b2f11be547d0fe154eabf93cf15cc84c404389180adfa5110f4b2806365351630dd26ed7aa68e8ad0370294440833272ff75dcd9aaa521b8bf17b3d999fbe0963df5a29adfddfdbde146c551257f1d4c785037c5ed3b77330d717f342ee51f5a76b4d6d9a3560edaa1eae689a2e2ee0511147225bcf148ecf557e2467b3bc,
  0x398cc9d17c6ca835ac3b86e48723c561350abfb8a535896bba777a33ed5c4ed65720455ba1e1eb61f1ec5cc9f63d7056c3ff4117e637d62ffcfd6989380f9d1dc36161125f5bc918f7735b15d1e09eb3bf7b747910cd416c898d86a9358a0f5bba0d6e3b19d09df5506593fc7ca0ab603e7e0f8d21230ed0936f87a544cb17174e0e8a80f7,
  0x15fb9843d706b32f1101c3724bb5a4257ae754a63c10f340839bf686bf7976a1ad045b04051fd94c272d8ad0df28c4448ef6922b15754a7d2f93cecfbc02e383009c4f287b061ccd200d70d4d35988cf69891ca67657fade08afe45b71a35b294a75565351f58f9d107c234305880efa0b814a48bc7e0c7fb013d33da89276eecff7491208,
  0x7fdfa8550e5300dfd8e42ec70a9403c77442496650add8f6f66fbd9a16cbc80bdfb48849c1c76c0e1e8f9494ae20afdf49a78ee9d6be0f36a961aa299c6d28851a99bf09e2aec44527d67d153c121ba1b0fa51e8c421a0eca0d09c36a9d7e9c5356d96fcfd300e98a40e6456fb21093c6fc3cfa51b5102310a28ebca002765347ada8abe6b,
  0xc0f2446923ea27c6b188655274c8fc05416b442f24a6535991adb17775ee3f31aa2beb7efbd4c171312c932dccc8f139c35c75d13acd09e5f48ea8e1f513c4b5a784d0259690973512aab70fe88d3408f3765f125e6cc2cfd1fbd65cd68048581cb079b0407cb5f160db6ddc1558ab5bbd80ded56e7fa1b2ac9c8414f55a01964d82407ef9,
  0x75efd854aeb84b46e5f776ef27ae358a37eee1613f29b6c62ea9838a6d9401147cff6194e4b19086dad45cf7247c1b9db75cee7872847a0c27eaad6592b562684f6217eb72b813d58897baafd0a846d08f6420e483a66d65e3469db36e37e5c17fc5483dcb3fa98a280ff5e1773108ad2f8017254fa4934ac64817547d42477eca3d141006,
  0x814c5ee88e904d0f5c9b38aa2fc063bc9dfb840effa91143b4ec94f623437d1de4b087306841cc8c8d8305338c15c3465769347f85ce3ba69e327e48f61246b959c453b15e7ecd074e68f1674c7aa53af7124023e578eb43ae72c55d3e19a9421d7e6d0480b2ebe233ad4b63c289b623d0fc517e68943338390ccab9b5d95047d1e247ba92,
  0xac51a974758378d44732ba6fe28d5caa3eb8a2c7e7c56d9c036ab6ab9138badd25a60438f19585397e17cf1e029e3bc5e05cc9aaf8a78523a83206b146b948b5ce7ca942c4d3bbb9b8e6dabdd4d4abc5c4afed8f97eb9f17b39277e54f71994231843b28915dac04a7d564306e73601eaa422eb550fc18606aefd9b5ed3ed12d9ed4c5a38f,
  0xa00a9cfb70bfc521259aaa7abbbbff377d161159a62425f3183b47f2eff54e325b28a27ae7f2adb86359a1eebf614ea2e1f1921e4efcdb7b7601df56da223cbf78470c7c8c61a8885965835418f5ff64a24aa4104f2bdc7727b5b90e723e5723d0d9c47ec653b00832a45b692f9d5b62afb8907d7b7939fe5be45c9acf26463df244b4a094]

/-- fsb/src/pi.bin, bytes 187264-204287 -/
def piRows11 : List Nat := [
  0xd70b418456019a87533891d043e4e10b9e66e802dfaef738388345bc7953ae48d1add43e158edb0fd877d2e2266ff4441a30d8768d3cb59c96f078b9c26ca55b6b40351aff76f8de14cd96e0207e0c92d73f46a833541cba52c68c81677c821b0fbfe2a88f66dfa55c21c9fc0388b922e61136e0063908f32cd0d9c1704b8af6cce49dee4f,
  0x13b1e1a1ca6b6dff14588f1cdf8dd52d037780f6dddbc2693b25d4d1bd5f623c8c2cc1ae65fa4e0f7c1395c254dadde27821aa90840deb817d1d4ed79fef4f5fcc5b6b094e8be0740471d7b47dc6e4a2fe92832a9d13f1ba730dab8e9ae4adceeacc1737fcff8319d27fbe84c679bb40b623c142aed5769ce4cbebed20e19092db2f800985,
  0xcc2147e6b24255ddb7f34830bd524f4cd5eb487a47b725d1c009fd63d12949592c095df217fbe222ec74bb706775a0f418fd8c91a240b51748c4c4bafd3a04026ace566aec09b9fc8714a0f9ba5f9a030125f64d860bf684248300c489b16b85adb539244b2b56e36cbea62d72fe1b9b75fcee049fb5dcad96b2d9370dcb4cfc9eee011e37,
  0xdea5228978b1581dbd97906ae2c97b14582091eaf37896c2cba54b9db1bd1bf9a9f0d47a4088381632d2a2fee604b05e0333ca98d31a17863b0ff48b58a15b99bd0f885140d911b9eaf6e2f7fb2b865a5782dc02d4e78f8875253414ec146d5af1be2e3fad03dffb96cd885737bc7efc368a3aef20612040f87453f41e77aca1134c3d3b1f,
  0x85f0e1866f22d31571d527e2e5cc89402faff0df7d3f8163d653b9aaca7b6ba2dcc26eee180e6156b8f5d9b288f0dd916662a73d97bf23df23235039a62dc8a5013f470be72347dfc06564a39a78a0572ca85c3fd67ad0dea424eea5b8353acce09c6d7614d913872e16f8bf37937658d8c29acadfedcfec97bda50c965a1301cdceeda2d9,
  0x7dbf080b42a0af459f8c2022daf7edc49a80939f2cbe73053859bc0991d57cdacc8faaeb13dd6ded35883784276f195033d5b384f692182e46e4d8b5f2e8012dce679ce4a619c2336765c309eb92feadc1787fd8aace21a6176e4f7a319a86f54d5c7a683ba01bd98911d740b2f7d047918dd37bf391c0f8ad105ec8c0f3928cd457a8b8d9,
  0xd8b0c0afa23f471c8062674e1d51a88ec64efb9f203fe552876a6fffebdd016047efea778a8f0b2b296157d8965e4461b221e5938947cce96da6e94a200b0703a28c3fec6ae029772d3b615d8a37f08b6103407162234188f1857a79c90eafd7424709bcf46f9cc8cb9ef9ecd6b56464b6755c5e72d4ca6f518b5825340166f288dd47958e,
  0x99dcf99438d50f67aa2a675d1f34a907dc6dbda80605da5cde3fa388c5b4d15e80e70fdeb06fd68f6fa914721e487891a98b4852a84601717383b352fc1b3588fe09723bc7400a726f15125677dc1cebc31aa460638810c7be35d8ff96bcb669a7a6f88cb29318412acb49056106a409589b4fca1aa80451267c19424c43ba7326dae3cf80,
  0x1259538e52f411f3244e0322d6da6ea86f882e8293c8904b92f74f623cb5a354afc8eb03197e75faa8c276a62ba181393ae595401cdf45a3a26742feee37284c951e009f3fe99c3ba6e28d91441eb93a74dde25907376a3f18ea990945b7dbfaa82f1c8ee45c226957e75d8e26bb845fc27bac94637f1a759bf69311b44af2883f48d3c1a8,
  0x2deb01c93c1b77273407acc1166d7a160d9c9361caf48fd57791e81b97f7e37c20c2e4fa592db11c288d861dddc7027f1ae5b0d8d354cc9873c9331de6aaa82f6e63d0daff388aab5793aa4c89256dd517433d2f4216919581506f487fa446cfec45c00f01f60384a21815d412f941a5f09869214396de308257a9a439878d2d46a74bef61,
  0x8aba188dbc764ad8524952d3762d8fd40f1d9a4f9220a5c74fe9297f0e62e76ae143c54fc5ce16da66ef6695f4700f5def4408a7c598b9bc5fc0482f3e9a006182c72dad9e1b3c851f31c623a7d554309ef1fe8ce544f8d9264939779d26501ab1954cb02b1f04cc00bb7d794b3b40ad7062b3ded63029691c4e5ac00e53abcc736bf43cd0,
  0x45449ff142ea4b74726c6f6c5022c0b8de17fab4985888565563c5b00f2ebb79bde71af52654dfc6dd9fce5f587aed41f6bb9b24ff3fda1ff4dc6523e9f70fe4802996519e6d85f9687f65aedbcaf7617fd1167ec22faadb54ca3b61eeac9c6c9c3218cee9ac39f13f4fd50bd0a6f40fc55f930c61a20d01fa407a4aed7a2f6e045eedd143,
  0x55053d71721f48d64a2d8eb15a06ef78706ea61c2431ee1531e2377f4ababbcf2d0920ec3304a81cae6f84b9f6cb32e7263ba47c8659a44bc8baa0782246e376343de8bacdfe079bdff18e07a78987a5fbc41874ca357a35287d772a90305c75a807a0467b3c44cd6ec84ac425718e79a2993c7cb6b7197f3da1af3c2953418f0fda478415,
  0x543e53bccfe682812245f25e3d8cc51d25c91066c565a6a66d5af6f2742bcc759382450bafb234e610c4874c8804f126327953af8b5a5131f4bd62c441bf8f7e92073880a66eb036d9a3431f32c1ecfc3fdae8bff5304211a08268ba319a79a8730b582dbabc9d7b0cbcb7d73e483996e2cfd0ce6c91151c53c255c0371471173a49fa86e4,
  0xbdf766398ee3a5c986121bbb03cdc4a4159fb1e6fdf7126192b8116e8fc1d3e2884d3601586201050c06ad0243262e5f1dc4a508d04a9380c7aa1ea115ae0d08d4e60815ba33856b2e9e3f0e8d3c2b214561cd62d7e8d64ca285a21cb7d8e6bfc5703d7a856a88e8f09c705eddcb39ee3f21eb0090470b3a235fad9198e4336f3e6f87fccb,
  0x530dc98d36f0e0b4ebcd4017d5f3ab597f86e682b6b2eccd88c0643088d5eb5e77bda645461da079454853703f549db0433824d686b68647cbd9d858f55fbd33974957c4305c54bc885212ed686fc3b2817f2bf5711a1244127fe875492574885cc7da7116fffc9ef24aac788af7ef67c12f4dc92855ae77242212e173b216e756c013d1d4,
  0xe80e9cc60b0836f08e7ba91f6a790e4ae18025226c849fb66b8642d9809d99f60c5b5cced8bc1010d5bbf74e3f4abaabf29d919c5a28fc28ee1bdb0706a94057076ab7c87e33f14b06758edeb448eb8fb532cb5b26ad7faea66a5833b6e27ff1a34009741f313e7548ba26af660ce2f672bc2b1f4ad73c0bf3ef8551f8dd2777b5f17751c3,
  0x0e276ee8dd0664d404379e5a0887df590d2131dcc1b591c0d7ed5c3eded6c65936e552bbff6eede2c75e6da91300dadf9b812f42173a29aa02097b7c44319016890cbf4857b5f98e61780baa47fce00f10123e9b1b4441b7cfaf314edd87b5e0fa4d9d8083f7c1022c81a528a5fb08f11b012a0bea6305df852665e0a279bdf4b743879963,
  0xb601ebd22f03b1de5bd7a1e2363a6a3ac9f75dc99f0ba3c62312bcfb4670985c0717a380b4ebdf91196e1bc4b642814cf30d879bd3af0df02c31289d963bb3062536a12b0bb641c5bb59e61b98aaa799eebf58b90a85c8fddc5803880ce9766617284daf80c9754f94ada53b1225045448908d9b08c288493cdbc506cd57ab869ce8b52d1b,
  0x0bb2a50398d226159ae0f3f5db1489f317987a91ee5476c99779d41e87e57b8096a56092177d706c87b6679eebbab759d7122089c085c4315f2fe40dafb1a953ab86aef26a0be1e28becca8abb011da79ec958050bf7ab03cbe5b7317ab57c41926aa4ecbc7c0ea6571a3c180bb397e047841bd1d320bd937662d360555bd5bb722eb0eeec,
  0x4b48fb82039257cd271f3b10d5b3bff4fdbc46b884283a865a8663f2ee9b627163d60fb9b22a0263388ecf0fe8da872e81c19f8bf5dcfee6eedd041c4b97843ded099a5a6a4af6c39e5671c7d56b598de1de0c684c3a1ef21019d99cb3f97a7c8b8dc0b4e16eb34d565b86a3d1641d6eea5a608c61c3159f53f45f8a9a2f4cf73361b97653,
  0x3338fa8a7fe386eef9de3c42ea3c73951b48630b50baed3950e4151e466e0a2ea0e1505fd1fbdb350de911146dd426ae9c03724542a4d69b5e3692271def16dc9b06a2c1fbdae12181818503a8437d92e404e49b98e62db9bbe4abf9c5d9bc2632491f8f422751d10cb34b55fa77bbfa9d9e59f3c66e057f2224df9a005b4412f560bb500a,
  0xbdd2f9e5cb632bda159a6f62906f741c828df8f18f411671fd0456a892dd9f000777f6367913fa3d2623536d340a4e8813b455cc4e352aeee0e2f5ffa7f96665fc87a6c92afa2f40d1c730d24082b6e13535e0de52278d1ca74681ec29e5c4cb31fc7d9f0de1b293645c9ce6e7fc5af299dee0f2e0d1548f0943112032b99c97a1cc7beb1e,
  0x43dc45fad0b7440d72b6e34d1f0ddf4bce857049d9c754fdd855b54c28e040b0eaebef2b76f6c07e5c0c5e19d182c3eabb386f4e629fe18f242787f8796834710d46b2a26db8cf8bec2210bc8f192ee0eedbcf2062bff6a0ce9e1c755f1420f00e9e1f41739ff5388c2900cacc40de248e31c95f4cb458d896baf683df1049b6566dbc4871,
  0x53370143236b61964995482b73a9687c279b226e9c1f40fc05f1a35041b87ec8e57087d3d0a56d3c2b87d8007cd7810d0eea115cdf43e0a87962f0db47bd25793de298df06941353f6aa7c04fd50e39398685a40b97511990252fe675bbe782e46cf38b7dc430bb367700e2eae1a9bb3b333305fa23f8825d26197540e466a4884b0b71218,
  0x7a3e7b49d525ef6d7dcc2d423cbd386b907c3d665e1d2d54decf97397e98f095387235e9abdc859d838d858e5edca630efe342c0b063d04ea95df6c8601809e3f2ff584a5332fb9d0fb1252f1acde84780e048fafd3af430e97c6683dbfd81413fdecfcf085252c8186daa8b47a3d49764aee4605c35238a664071525a517a69457d7d8979,
  0x43702bbae713f695f800635e6bce2467a4c2838945af366947bb12836709bfefbeae7c4d58dfa8d71d79aa0e5a1dd73723870d6959f06942c54e400622476438d16b20ca3891c0909fed1e9dd560827c2298d1c225d2d7cad7e945ddc07fdbeddeb06d807e1abc1fd415a950258ec4909fb0862ae976038a53ca1edd1bee7512c7eb6a9f18,
  0x5da6a7219d1072e1a01a8d7c9492b072978f513ca89aa79f946489797cc0e61364962a918c5bd52f3e3527ccb39f1ee76c8f8f83d71187e7abbf9dc69046179bfc56a5f90630454da03cd7a45de778dbafcd3921da25abc73f423f1e980d1ce04ae1519e0bb365e747fc323844d471c5dcc182734c68a435171c3c92c5f41068914ea96434,
  0x65b0f14346fe44ceaa67a1d525d98554ab476b104e809cadc337a2554b4a1e1e42f32e45303abc02d2b2175ad80e05eae2c36f55b3f65ea102e310b5f3cf89adce5f0fe07ac9ea96310558f7afb57326e9f2363b619f6b931f4eb030ad0fdbe0f097d95e1992c8acedc01f8bef6791d2fcd0acab8ec0b9bb41acbd2db3920d497c29adbffe,
  0x76ef2dfc263ac05257fd8ba76195b61b3f0e59157a13f08498d4f3b8930f4561395e9eaf28926d50614ee9ae28eb0242152545e4265ac4bf49767e4f365de45c85273be83ada1161d2c48408eb514a89bd9463b29bb1beae1e83249ec1bf718b6e551fc7f5b1e9e0e2f28e89a17155526aeeccf309bd31cda9c32ee98be9d0b14f23127943,
  0x9a80dfcc1af2fdc8883d8cfa7007a813c59cc6da3e89a117e460697eb7f99a1b01a125560573f638f2b81c266cd7834b5a2bab8703f196049fc05b1a2898076ebf989d25773785f2d2ebe439ab24da923036f5097af13e913477921e55254c3784c569e829b8e50fc9498dbc421d8ba7e994bd115bf9bed5cd65b8a4c5eb711ef43b7d3eb9,
  0x8fd2fab4e07204bd6ac817d51f987b83ffd671f7d2a8dec73aae3d32004d151e80630c6f878a02804237c479f09daa08798b0486c2d0a380930d1f25c432bddbcab4742ba99799599aea15d19e20534771b454a745f7255414bb39f6cce79e506994b105d11ea38236aaffdc64ce4ef9af501046e2f022dde43aba7efb56b0a5afaac4706e,
  0x8d0eabf42f9de3476af40f9e30a4146dc791b843a116923fcf6d5434cd96cc70296c4fafa96ffb0504f180e09aa54da489e9673d0a10f1518f438605e93681903ee18aa306ad69b822870748886080da638d94a3e2514b01f1b699bac0898aec307ae9a40e955b4277895446ef211ab107e3863e03d44dd8c8e3a8ed2827080b9ebc24aa5c,
  0x601049c9840b4b583e5ab67e510b645544c9e4b871a93a761ee2d3379a965457a0b44e357a972c683269385636c072c37ff2c3c06733eb57372d417438910c73bff657d37a03c2b4646f1c5fe6f3355282006bf2096df602859a2c37647c55c7f7f4916fb80c6cb4bb73ccea04eb68417186c08b51ec431704e73eba77c458927265794823,
  0x23deab4ffcb2fb7917a04574dbcf1b797782f07d9b02189a07188d904b52acd09a9e9374dc4fc33405cb339217801564da24ec246114796a612a83e17ab5f39ba942808a88c07eb0413620687a5f509d5c2c54714226474756284d71a53cd630f0bfb10ed2bed577e4ab3f52e583df3473bb9b6ffc0d28dae2e32e445f21451ef41ac2f53a,
  0x4fe5d9455ae26bd5f1610d4771e46ada2f5169d0328754c18ec3e4178b63737d4f87c3bc4e179858d9c3b926c49cafd9f11c71bfa338f200d582a7807a7b235535014b41181ce8c366f9a9803bea870ab5245e33f446c7ccf274800baf52e7f9bd850f38ba87b5ac4918cfb58050689d4b362b935ab8c7cf1efa6066a1232f58ba07a91031,
  0x875e90fa49f8ba2af04992beab377d9b0f075f41b192aaa00fd69322cbd660def1f67dad97dd29ffd41774571447fbc07c62d54a8708a2b4d9719f978c343a157edecbc0e912952a2862eb45c1b223d5390800293103c16ee713e1356a4bf40b7de6413a0467501e87fe34d1f4c6c9ba27550cef0afbbafae460f9b670ddb6049d7e5ad9b1,
  0xf8e99ba0cad079a62f78d4be5034ee384e7663c63e8b002e48c51c016693e8b90a8b9d19d20da2175fb198dd934e49e65c4a718409e021c5a9fd90b56ded1e3837ef89e0d581f7dcec18270108444c69acf60f3cad3780e131e540b321c87fedf77148c2872273f93a32474b73c5cc523813be8ff76d7a2e134d1eee4994dc6898cbded6c2,
  0xee35c7945ea5f984963ef28cec3bcc1b76ab15280541036002623e9946cb0b4c7cccecd5114007b6965785f0cbfc9b89ec5daedb18508ddfbae705e71d2c1e222dc873ae19b034d0a0dd06566a6b11fc50f9e0a9cac77450e615a313a9b59027ed0e984ae82254fe3ac8e8dbe1695b7e2d4487055a53b4b0246db3e88fd01a69fe60344914,
  0x846a108dea0822b2dc4f1eb6437705d77d60b7039c8a3c26fea1464aa85a28666f0c02bc69384d93dff5fb7cb342fb6e201f45726a6a4343b2be5d2b79b545a2404e933421090b0091300e549eeb68da8d83ab16c11ce8d6e6cb724941f8e52d818b938bb74921ebcb015e2677b47c28717897afbb2b98cdc74ab55af7865b4b5de4e853a7,
  0x8a2e35382a2aba2a060508f525d2b7955cb4497c6ffa794e5594e76a3d28ccc30e3ae5c4eb069365a25dce498593f5f93c84730753fd40c8c47dea0ec2ad318b94fc392785658058746f285d3a07e240670eb85efdea63bf91a47152ad4d61d10a543d2a072de9019e5038d7f8e530a13cef7fe2962990760af0a2c08e2041239cb1f446e7,
  0x142e53a3bcd6837e5d911f7f61879936b0219908557590c9359798ead8b5a8f608ab79d43a31caf1f64ebf61f973fb012c123aa398da6948dc22dee98cd528ffeae87eead6982ac17b6d09a21a2f503ea00caa105bbf0f2fcf14efa5a156a35c75c8a5c8637af29301a35a393c3a6598e60e66bcc0f28f640635e988b5aff508948c55a80a,
  0x1f99dfce8d3567697f7cf914bafd3ea3c00782c7e83b8b0cc0d96a470fa048c93e4e0e64e6bc212c3c2c8348defc28100b69ed31f61e6eff2972111d3f1dd7a33cc5ff7dcd4e99cdec98c2a38c261eea90e43604ab2bae7d3f40d6b752d07f296bcd9f467b1ea6c863ead0e75aa1338ba548131b030b8a8863c3bed93f98cbaac53eeb6152,
  0x37f80e884b6a37382afa3a205369250833c10ca6ace9fedbae57978672edee27cb10ce8cb45c07fb85937263ec5fba7384abdff8cceb34ab2d8a7730dab6574a2b2d38dc0ee26f64601362d9be1bbf189ddc83ac73040c1a548dd1714270d055555fcf3d609547c0aa2df40c2037d097425e44bb37f2059b8e63edd854cb80d6082a753eca,
  0xde889eeb8bbd96499e44157dce126e5a5df1d6da46c5ac046c4636e01c0bbda6bc31d3103b6165e5c9407971173b428373dfd456806818ad3d828bda458714265433d6c1537312132ddcb13fd2267d051f76af861833bc9f638387705f175835de185e0d960b9fb128f04cec12e1ffb69561fc9d672b076735db31a47c3f50c22f5cb619bc,
  0xa0c3fffe44482edb2f41734ee26e446b3fa9c9214fea161303fb5542e89dcbea0654342c78fc37d5eaf9b3086746cf9c9de1d56664f42650bede9723cb48772659d9d2cc5d6e9fb786e92dc554b9ac527e7b0942ab98d26345fa6314afb3db321c074ecc9b2c7645664462e9353e825f7ffc2d773b83633bd6fdfc2e02d26ad9c9cbaf369d,
  0x7bfeaab779f2bdb4e0865401a316df9015482fe6bdf43c02f155078ae6cd1171cfbd627b02b747ac692b34f8eca4559c1cca26bf75edfcad5b3abd24e5173db9393833b500da6fe5b28bda4996ad6d0599dc019905b6c06364cb9473a8474aa38f1b1a1dfbd61cc188d8685b5fa35495b9f35f286733a73f3bd99634959f735eb41e6c3a99,
  0x215d7479e9736fc7b92305b345ff5cfedcc23821874c844894e3fd27f4e357ebf5bb9e4e6a3abf6b68a9625bec5734527b765d12247eef332da7e87ad07937293c886230a65ae0c72b20cf9af067351db470d766f734de5c2aa7d26dc1fec372d46567ff41ab2632c9f85f646755930be1f998cc55e92836feb909d64fbc6a0a3f5053d408,
  0xb83d7866628355f71e5657d91000c4a2aafe2b49e1be1b9cffd659b9739a5e782699d03976f1c620aead6c06dfed302921a740eace4ba676f7ed21ac805c10b397633e447f081cb96336b39b367d7517aaf58d91bba19ec157843b8bd9566587155cf61594e6844c008e6846d7fd4385006705bcbe10dd58455b6f8009f45e7f854331edf3,
  0xad082f282e094dbc1527617a9cbb2317851513307c26e5b7fa83bd34f1aeb8a0bbadf87153ac30234ee98305c6e69c32317ca074a9e1f9ab079108cf33e391424101f56306c5a85f6269d8f9057d1a7f0246ccb94cf4770502d154bcf83ed89b606fda12eefc5387698e406e74425b95cd8ac99f75c549a98d97310236dd456159268769bd,
  0x28b79c7e39cf02ad0edc85ba03f39dd30d1d2862a2c0cc445268b5270d12c660a5ad01e7fc7f425aab3fc9c429ab1c6b3a8663461cfb5169e18f31183ed197776dfd43098ed1118d99d385882ab5bb4da1464da3356a7786f072d8f215bcd44b4619e960d3c930089eeb6ceed4d8025b1b3f471bdd70be52360e2380d23bf52adb111ce5ea,
  0x0e1ec528a93c1609cc4f38473282d4abd61b547ed2b1bbcb1ebab565604e0af7b6a6614f9ab2557371df1866a8170f92a2c07893fcfce99eaa2dee057b9511441bf9b086076b15a409cb83dbf923188be70223a6bbe02f829aef8e33a453f9fd533c85d587f0c17f2cef8532d83a15e7282f37e0a4d3f2a4a35432ea2ffa99dbb543ad29e2,
  0x173d09e3140e94200d2c37a7413d641c1fba67c76b06889d9a603b6138ec0569239328eda9b0ab8e4dc6b104270920ad40af98107b9971145f2abf6c1f7a950a86bc6382e127969bb66a61b57456fc9b9dcff9d250e9204f87c96471ff5208b54497d4c65e2c68c61324166501dea22859a85365dd3d3b5fc8d3faa263aaf083c6a1c209b3,
  0xca4bf14186ef0bdf2f7ee6e484c258ba1968ec87a8eae5492e8c00223f082106733f47c34c2c3566b252626d681e020b361a19e3eed9bc2dca661d52ae3666927a690fd2f10692b68a27a9251b1553b04dd772888c758b2af7d4251de123572b96f67ff16e86a3e69022a52e86de164de2927c62bb3ebef13b4da865774ed91530d8a114a9,
  0x134cc010be2ff8a459a1c68f542ebabd4a6c66f69531304df937fe184796b65318a271e15540b46381b414cd506921ba3a3a7c9173043dfebb14a0c504b2f7af61258e031dd20469d16ee36eedc51369a24b3892c1f6bd5166af65a022caee0df975b67ffab99bbe230d1e45ab584dcf9aec04d366b5b39577897dbb91fc4aca3a86f15f5f,
  0x29250975145ed2d4844178423cb0d3b72c5a07b2eccb15abb81f420d4678b4126043b612ab1c98eacde04d120b1e92107ff5e677fe105546be4a3ed8863d47db8987515111a9e8f7c39da00963e7bb53b9149a09b474972a84ccfb7286a0dcb8a568552c68f3409a19dd9c54a90ce9ae68b3f2596d03453d9b20a5e3707f26b16a9d14f408,
  0xab9a9e484d5b1602fbd81282fcf91f3e2b278f4eca2c45f44b1fe218387e2be538d1b6214db209ecfb248a19936a1df1d82fd1744b8d500fb7ebcc55fb78b9c472dfbd532b520cd6d3ca487ea0967889124077681b280ab32eb590d341d2b56cb755f2c2ece8c34ba6214729d0c27595cabef3fbc2196ae9f5a7d8c54520f34fb77913552a,
  0xf5829a4e6d0680b177b3a07d64b9f9d426a2e6b01047663bd9a9461f873aedd0614f7f703cde81ea8b6a919f2dde1e1c048e019f28b9d429868035d375e507bbaa64674557a68ca1c49953360c3050595e9bff0b6b1b2cb244055f6e367f98637ca819bc62dae42c0b160214d63da493b6d98a53366a9a5181f590ad4845e49056387f6952,
  0x276b6be6db148409735cdef363db39fe10d8b93a335715641f893d57cdeb7c94534f11c06e2b208fff10ca655f544d346298fede0e0084148aedcf16a0bbe7de8e7ed19504a4a01df5b98060eab7b28f4d843e976883c197a82b63827378ad215e22fca27d319a99cc5022ca0548e1b0f0bda30d0b103433df814c97734d91819e7e281896,
  0xd732ba9a1b8656e21b87c14a9d9bddfbc48220f8e2dd3500ebbe45956734fbef883b29633936089cbfe1c8716bc995847bf0707d9d6e6aa0fe56b3cd5f3c5b50915c85c57760c9427d8b55f5cf819376f1d675e6ca1fc414105d7230faa64ca0b048583d75fb9427c7406fbae61ba4961861a23ef5f349a4a33a2283b4dfc8cb8f9dda8e0c,
  0xe25968e0c82ea6b6c23c91bb6ba797c6ab19fdbdefcaf42b896c754a84a4ae0b5ff724cdfca1dd3f423c49ac2130394d438fe1a90c0a839c45b8302b7e37b681b097aa67f438d4485ad6ab543b24424fbc60e810bfb0e9916aecc8d12719eb26f62129bc15f1372e4582d15a42a25acad46e96999de33e15e19853170594f0c70963ecca5e,
  0xb5a626c852452194e2a20b7d06a78792b9acb9718f20e7606744f50242bbd5f974a420b8979ee5b4301353dcac0a49ffeb12590624ef53bddb4615d45bf06f2601751db543ad86df6b2536c7b3eb3d929d46272aea34fa939afa28c9e806292501965d02f86c9a3474c59f24de73e7cc89bfb91498d1bcfe81b6f7b4ee93f6309312e5db2f,
  0x97ca6e6d97d832b29dfe6b95c4fc0ac0db8fd1d1254c8ab1073ed6ca88b2ebfe998429d6db32c88990d4ecf0c6f58390b7464d14d6f1a3b2bf837a87b91b2ff6b87deeb62d82cd193b532517696c449fb4841f23c038d539ed97824ef18fe62c7616d42e41cb377b798195f99990b92b7f0f331b24a5f728df1ea713ef7142a58f7521f4d3,
  0xdcadef825b76ac4a0dd368d4e3762a523c1d42315fe1ea02549c9ff96a0102e5b50aef7a515a7611df33710c10cc064a7e3189a945ed3e443c5bcbcf396118b924962a4758db2865041365a6e2e4d89b74272d105d2d6b571089da7040a96e492d54db03265f19716e6b07236bede4cb7db1bf07fa95c9e41fcf072a82d24bbfd2220f1018,
  0x52f2d66187fb61c9b49255427b368b75470d6eab2be04bab306ebf4d2051bee14e1476a3460097045beb647f6b70e28549f91496898ebee2e51246ae9b68f7021e11ec5f5ecb4c90e95fd745a86dfede68e53f588f12b39d64a05e27f4acfb7d776f242ce41b571b15b788e93005fc4920aa09ccfcae5b71b3b33803ee05492a84e2bda6a8,
  0xa83d502703a31686566837b405d0ef7c549b38caff392ef4fa2588df1c4aa814d74feaf75cbea2e33e2cac4ab2f6fd9a08fbcfd7db9f4fe74fa14316ee01b9c24ffbd909af0a7f4b91442eb742e60b767c1469b8f404f32c28c1345afb48fa8177044fcb69e760fad7a25ca5a44adb77c07bd9ef498656ae318ffaced8bd66e7d104117d63,
  0xd89df6b9459addae35a07d1c2b5ff7cae58e736a0611fe68c055a6be6af4ff6ea47e30fe9b8debb2535727f4d3473cb082610a26225423198ed6ef7abef1b5aa4d2a645ac4504950fe7f6a5370dca9d38965b2b3848e713008c28405797a0553e9f0eec1a44c7bd356739c9dca9e43e7d6889ca77874e975739788853605ece58024098285,
  0xb869a707a34fec3c284c2f704e93915d6a4b97ec825327c694ccb5c5ab9411325343105668988aa7f2be55acb55c3930acd1a2cc56078c8489e84513b2be142b9c6db4ed0e2c9d0f3f6e7b988c47acc2b10385cb36f2dd914ae4cc31b9bc0b664c6292035cf29db7a4c848f6bf8b18aae141d38a76a21735f3eceb6b8ad48474a09394bfda,
  0xf7fb39f2aef05ff6e441e2bb5cef71c3fe7df147d322e1337bca7ef9bc3ea01168c0d59ef5a817932389c9ca7cdec57690580df68a055a52cbdc5bf44ed31632d5c2abde05dfcfc96591f1b8ed87e44d224f5e32f611c90b39b0c830accfbcff7e17e54718099fa5ecb6a40ef61f2830b0a0f624115a469929fd823492d787ccab81ab47c6,
  0xb3ff72af2f634cb6e6a961a7e24eefdaecac97e85375303d1372a7887d4036840c33a61d2069c4e833eec5a02250e0228fffeb399be9a8511803b593ec787a1a561d4b65e58d69d4576d972eae1436baf2cc681da2399788181a542d71a1122ec2f9b407bc34ff9cb655e32bf58fa472bdd8482cbbcc51fed96eed46bbda155515878dc0a8,
  0x86624553247165dd1bbb813b8ca732b87846348717a85697f4ee5338e96e26bfd7b612829247fb07f8accab59ceb114a22a8e2e1e17781a89c012cbb03f7eacff2e02aba3827fb9c4dd1c08586a9043d24fda6f51606cf6d907b4d3db3077fb2ba1694b6d0119815a5737af8bdb726b977e373da7a2f4efe1bd63f3a26766244fc0203c847,
  0x46ebf4b339bcca3ce8b59a11b5529740faff6107b58dd3b1c09ba772db95da06b2ca8c814e247779a85d97903ac271ac709b5418e8da3eff6522f8dbcabfcf8268f24e0be8b82a9eeb24d1681bb354f40e58032cc1ff49dcad4d1751cab2ae81cd43c9fcb0bf5dcc400e8b1967c0d66948308bb3447f97a7546ac6a877bfac6d3ba5b6d59e,
  0x527beb143007637b43b35c71229487562502482fcf3951f9833eb9b0a0ad059944dcbdf0403a7f4c2aeb2e2894b4fc7a319ff7755daceb5b377c273846e40f06d81429a77b41f5922e5a2128382b3425f5ae678e2096983b9ce51ba3766a66819038dddcc98391765fba8c472de30c14597d9a5b074c00e480d4ba04c0d0eb414e5b6c582e,
  0xbaca9e36bc834f1d3b6295acc9da740e1f6959aebe91145a93a6f912810f5f16cef9281ffaed979313b3b7fe59567128e52a9269072040a6a25b55cff3fbec4a7c73b1e6cff84479b510145ac235ad4f4a928cd98dc82546fdba9332b6afc3a212cbb88aa79abb25af9312ea5e75579b6d2771d3f1a545784a6f877835b00635deda93f1d4,
  0x27ca55913ccd4ec07b9032dc5b6111e40145e5a0781a5c9bac506dd70d65b4663c29d5aca8923064206af6f05872b00117f17ee1be8a15da6709eca78381ff015c592f4c75e32fe0bf4816b22b615116790405973f3cbc0edd78d4e166cd2a487670a60c0321066485322f591898fba49dd7f8351dc190e0a9a9f76d7bbd87434f93a28639,
  0x8f2cdd85de184ce845a7dd5493b170eb9d16c984d786b5e0f59490e85e5c9b97cdddc887ea5a36ccf38c2dab91e15cde7d775ff9975a760987cd76ada26f0c57e175b6b4858097fc7355cfb24b7bb00994265e9111980e1fd0e14a53f9819a7adfb239c3001a5bf9a5f5f5975d430306eff4bcfb1772c74f7e85faa68168ffc0d3e0720da8,
  0x06bd12e8f0319a6946e55d3b28ff0543f0df96031f9412d5792da62093a190d5677fc0686a786742a2424f9e2cab642a1e9b9c7b5e7a8934b1b55fa2a8d56811c50e85820199326bc2f6f92a45fd7c04417bfc06bff8601db4fea8038d3ba8d77589be879104b7f987cbbd6e6e1a46f3253bb72f16a68044ecc7343edfacdb92a27bdf33e3,
  0x5e414b739e0d6cc2f7a11f6d2dc1ea846e07a411dd0a3e0e52b369bbf7e7e8486b498e0375d071cfcdb4718a9c7bb886b44938d39401f36fef0abb9168d6c39560b2a6907bbcf4706c771bc20b956ec2812db2750f24f0f9cee974f894fdd05e2ea7771486a8c29e3c964a89733cf087430e2a9c5402a8f14d5e51c0e5fa4f86ae80763038,
  0x987687b4054c23293a8ae935acfdfd64b003dc913a4d4615863358c628d79fea5e10e7c3f59198a2c0617ddfd26ab27c83924b228ca22ebaf5a47ef577acf1b05632c8ba05fa2466bfdfd0dd0ff8239dba99c9db786a67a07b42392766a9c293c60eb67f6750db0cca9bccdbc6baabe8ade6fa4fa24b4e1cc11674bfb485a06f185564c79e,
  0x644c7fc72efd6d0f69bb23efe220f081ff0faf291c5dc4fe685f446084bb78c9782a5f8eb7b3d6ebfe157fdec4e646567a45364ed6a148510aa9e66389b5f5d46da7c301d516d771f3f8cf6713c460680d58a2081d20640f4c0fd44b591113f18dd43faa3ae46e8705673d102d8ddb36f67f12504539567d214f3dd50c50676dd63eecd15a,
  0x172fd4b024bdfe11414abb7d3f9c32cc0c71b738fcd7b0b3eecdcee907d13ba4a7f2e84769f874e7218f7abf39e30ea1d86e5c622f87d36dbb6ad30f5f879b0efd161a05bef00cb6d77ca00ef11680b8994376653998531ab4ee0d9c10be7e66b775ec20d521a0b73185d54b317e056acf136c9af19eee7c31ad41aa8cfd265f0df738272c,
  0xf85f40a84649963ac601c1fafc7876096610da7bbd140000fe8756bd0b3100fa2357a3718c52f561125921db9e3003c4a1855c56425ccb0099608d6df2c78b7971d981efbc468e11126984f34c457d70e748acc2db3c3caa85596e26353385abd4cd6b6bfa0b7226a1717f207df039b780dcb0f7aac886c657c708d486bcba83e4e2265afd,
  0x667f6ff10189dfbe060cb2468eb553516e4e9ed646130530b4f2eb9189b7810a5a5b75310bfc60aa651b23916b8f5546486646d5a99a1ca09bf5b6493867fe30530d829eb1937730f741c0a9bebac53421b0f1c1e872d80fd7e51da62c7943566aeed1338f285e403386a6a43e74f1231dd7b94c907f0d7e2227dd954ef3900e7d2a6a5c0b,
  0x7c5e2802e14ef116aad069c557f396f221d93a176e3af4c923c5a57a4cec818b6b96694de5fae710fd2a93cb593daf9220bd5b99680b95b2ca61b49077e63c6fbda651a79f1b9e79f817838ce440314885341c0a47a7eff33bec1ad84cd96a8d21031b43d873ca2a3f3639efb4a4cc2bbb9036672c3ee1ac40cceba54faac0520c4922ab58,
  0x98c4f89eee757c6d0cb966ec694f1615cbf161405a5089aef1ceee6c110812e15c4cae28c4ab1973dbe1ab66252c14c1e07ad3a49b03bab357fc85abbc73aa9820c98e39ec5bb61beb1f772c35a181b82c34bb3cd08797f6c7ce8faf479cf433ab66c4d77994e54ac6ffc8e462d8534d52bb0eaa0940963889e963ef3571c515f49d366752,
  0x9a91b75ddbb19f17206d6d8f1da03f06c0d16f04dd5681693be95d1d87da1aa576d6cf78e0ec5573d50b0a7d3dafb5ee585d989534308b41672d4928bb085ccd8b918241aa740f18714b2f19b79ea3265617ca526b6089e393713a5933af278f1c706d5da27ed10d507eb39827dc5b9fb36a1d30407bd17cc6dea07728f180549c69de864d,
  0xd50e2fe9f4091e563ad4adadff5b979ad7095ac4bf2a6932ede93571eace6fe30cddad9c5245a2598c78278bbd73c085511c3efff8084cb5feeb759bbb0c7c2df9c9fb24063465a128c5ee25acfc72ca429e43b37e106b66c1ae1fd4c2fc9f1180062a36a8e4077c673e16df79332158292e97e6fb0773eef7d0ff85681ffa8aaa74781084,
  0x0ceb129acdcdc5dce4a2c393e753426eb6f1ba594d4f7fc88580541dd747df8604f8517f18ae403611eff7e5b3529d84e869b63001517d5cd626595c9bcb7097e0e21df80e1201dd88b64837ed06a0956b21206ae76ac52aa25ef9d1d59b8da3c08708ccb8046deb85ca1d0fc27a7fc67a7d17dfa4e175e76cd0eb1eab19b9afa7b7fb3056,
  0xdc544247dd242ab96101ba303e213763ee657461ad62865408601ef4a054984668dccf2e1624ceeea4ba9358ba2a86abe01d9b3b984f61f1507c305f8b91ef4b60ac0af2c42c5155b116be1aaf094744823f62882f067ef4e0820c1049141788cabc66c59e4fffb6a7165af0f2c736bc308757b2ff82f306d0f9cb3893c00bac2af41f177a,
  0x72bb175ecaa447fdbad41a52f537dc1c6e6f197702224e1522c128ad4205fb04acc3988634a6654ef557d8840135073a30c924e9fe7e525c9d9269f5f8f056c980b4e2e1e87b1534215178ae23d5bc90474ecb8b05b08f1f4f0e7ed927d689f937aadacb4d1b509a9b7891fb1f8a43453bd2ead01ae382b96f8c1679160c909d786d0b29c9,
  0xb19bd2357bef246c5a99c5756a8a3ac29cfc75dec8fab2bfc5f60f3e4ade2bf6bc731b7dd85a8793886bf0e68be82f5831c1c6316ee53b70fe95f529f6d0442f3466a2fa1a94e5ca0be18d45adf9b4e92113f13e3ada0dc7d7e2c1633e83be5403eaa84f94887417f2b5ade697d648247497168072bb9a1fa67fffb74d4aec5b00fa70d067,
  0x1fbda11615dfca292cce3bd9871584c3cf9801b2a5c55bb9e3562588b299d1899261522662556cee77dba919e22bec43eaaf1f169d381d2abc240bb9e5ca16b1fccb3a4689010762fb9cd876a80f3e4d593b27cddcf44f07304df8e67ee808debd6d7027cc3ae1de2c0164cc5720b584dbe9b1d71b2c2ea8654d461818e60588a9ad757f67,
  0x67b6126f5fdd50ce0f6c7f6b9068aeecfc125d37bc815d96965620325cc21caafea7535639f12a67691ce9358d3961abace993770a3b62b49daff0b93eab8ffb98d28c89905e870d4068f8550b13c7c9cfedb6e3b4c9141b81d73bb32710410b0219eb12300efc34d21b909bf547e790ff3231784e9645c418da62744ecabe51041e7611e4,
  0xebfd30d3b2ab4c84d8b905ca52b87870c42711e709d1a149e77b8a1ea35a21d259b2ba9a273b28b48ed7ebc13325cfd8c33ee019f2c588c9ba3a12a1135db7a0dd6d5f833099902dc134225d27944889c3e326719b5cddd24c14a730060d166af43550c0eda5e8fe6de9290d1ff38e80bb8075be524ea89ccb1c71f620be2f5d131146a131,
  0x259b894d3b8c52485bb56ed890bac1b3ef8b90fb009a4d5612f46e04f313351001cb61edea01a90616b3085020083c1f93e5f03f0324d8269c67cb4b510903f72bc3534cc930b655af32ebe459f4736899db79dbe552ede3b58eaf3b7f58c8db0f09ce2e0b85911925861158b6d2e77e55d2faa4939ec24877a4cb064ea2efc3ed5d4a000c,
  0x2111b4a9fc507b4e024422f162073bd176a0b68bf71c561ef474df1e3d8721d74926ab445e85eca97fa1685ba58c42025155b09e8a630dc0a70a09e12291f52d7f156350d05a84ff720ceb417b19f288261ebf9c3e13f9ae2c8217734f843ef557a531650576aabebdcf338ed7ad5cae2338e5e4aa08bad55368b07e35ae8e2c6cfe879c9e,
  0x4a384365a361aebf281d9c56f38e3012661f60138a4531b49699e67c51f955302a4329e9237d22873095ed667abae465690e3b3fbd63a955efff368e967a3638df6e6f4bf9c0dd35c02ab87427a39b078f14f715f36db4531207a1a08afd3e45d5f23a4fe861d33386df80c7683b831aab58d192eb62466ffc4e551a1b43a18988c8fa8073,
  0x40a30d9a25b72102b6a263eddd9046f7dee831f737162a8b6a77e00fe612140d733f64d2a8ed41eb7600db71bf3fd801dc7b8006b3ddd3efcc785c05bcf064654701c7842d4c41d17dcbeb397cf0f4e09785fd41c8988e0eb849169aeb6da6611b65ee8ecde1ee996de757c13e2f3bf7dbc9a175d3b1e84609043f6cf8bae7ad84aeabc9ab,
  0x5d7484bfddf5ad31f69cdc69f4c43133063f06b32b4c74e22d170106b3079584490315d965431bb2918bcf54416e391da9aaa2c4c3989b2f3730b682dbe5e7a916aab5309c0d24a784c9e08b48c49b447e416c83396945abc4eda64d5b4d5712ed691e95122bc1401231f3cfa04d1c35da39bd5bcc71457245c0ecf8ee5d83dbf927c7a2d9,
  0x393ba260554ad9e2a499b8d9be48e8985583b0421051835ebf8393fa9d05aa3f48f9415a48ef788dcb9b5c807acf7f9c5398e60b533d77cf06a488bb6a0115bd7ebe00a68d02a3ede244ce5c494cf8f73cfe607b10f5c5d3bd3ff56700c16ff84c3b4751af55b20c6a07cf204ab743a62f7c864f8f09e4c26276cb039b2ee593516d640ea1,
  0xdeb5380e446b478a7c0391439d049dd3254d84451dc6eda82af5dcfd7d5f52832ece1d256cf57b62d903f3dad8f1ea9f959d35966c2ef79b39da9eaef321f5f03936812cdede90f2497732605baf453b64a80608b75113d5c65c52658111eaed31d54f34becbebeb21d39ab18214b06043a4fae80e2853cfea2829264b41be00b6d8960f0f,
  0x009919a2bf562ce0afddaf9422c52b63ca3a7de100cdc6a59da2f0093f6ea292d8c413ebe85e5d00a9ce6e7d8ccee5362671298c989b05564b4c174ea10b4017dd0e04b4706b076047dc592dea1d647c4a62451ab0357e022cc6a63abc47a6b3b737475484d546990354eb174911853d50eb34fbae9d604722b4392b54ec93eb8009c2e83f,
  0x79b904d0bea15aa114cd55c6db54a1555805fb25fcfd2af1be0a90f4a67f2c1a80188011a8e28164b43e27bd306a113e8c830efe2a057f4903cde558f1c0382b6b7a6c72994746fead979bc96436566a49f159f1c6eef87cbde5ff2b7d3eab35101f97a9f208037ec52681ea00bdba16fe255221203a2c5da8c14055963248b1bf71ea8e61,
  0xa112377698ea417f691fcdf8d44c2b7055f0cf71044c295f8faa0e1f0de4bcc3df6993a0dd238494b49b64ac8934dfa5d84671303320ee65bc3a5490f4a7045df4e7b804b7700dd7f83741d5770ef01073716a85d95382e78ee69bea11d353ee250d27d26e79bb5da495f6a7e0049144d785c5d72a463477ecdfcaa446aa0ab3ff56becf96,
  0xe04a0aebd49031c29fdefde53f4816d7a880c9fbce4d2f80ee066c72ab52a859da9cbb6e2227d05d9b416d588896816a0d327572e7521e097cade2a615cfe426e638ee5c0ce2045da9e94f07e1ea3b85c27eb0a25259880790e4a50828225eaf7c01458d58f6d90f60d2c76b1b1c69e2c3807c2bb91df91de436d010c7b866e9a6565faca0,
  0xda43bed5c7047637c3e75f775bd66853b7b45a5a0cce094d9a089224dde668784437b2f4ddeb3d1e047a84b216d68af2e9458a53c4b80f43582b9d90718af04d9113916c7c3a385b8c9f6eb731533262cc65d2c55cbe90567515abb33a8f2adb814de033120999bff5110fd248bf5aeaf656cc251fcff38b7f2c8321a56166da34261eac88,
  0xdc12b55e55220ecb49e1ca8faa885b99fd32b5eba0eafc8b4251939b2097c8d8347f0e62e34726add7a2c675c31ad608d23541893e466655c9e50df577d5daff21867b1f38e7caf9de1d41dc2736e1791010841c98779a5fb8b85cf65ba89ad7c44d8c7538e2799fc4e3f9aed1074f766c0323e67cb7cd395ca387bf20d363a6ed2e5cf4e9,
  0xb7c05fb74ef6b195acf45925529b84f16695342837604d139637c754abe4453278591180a873e8a65b2b91b737f730231dc21175f3612a9a16228e7545add6cdaaef400aaaf0b0f2ca48b97886b7edeebf69f98531b78d2463a99fd7f5336639eb49aaadc40ee63434677de84424e89793aa06074779c643bb187c9e9e35618d25c8f5d090,
  0x3fa29eaa85ba6ff553d6835f5ace306ca4b98eba7a3599a8fc1b6d121d0d42089612580c81426c6cda5e7749cb49b6ed85e1106bdae2a588279c2fb42ab82095d8884f2ecafd9c31b478c12fd6b86fcaef145e342868cd641b512a77519c25c56ae8b292f0ccfe935328e56b0243154a54b0f87e01d5b514cb4db900a6125ad2d8d3be5029,
  0xdcc55083e14fce05417edb6d6123806d609a7690761238f39ff917d98c8cedc7d93238daecb28d44d6aef314a2a670074228bbd804698333ed41b07aed7b1874a1418beff73b5dc2cb00637d7f1e33c99e1796f13443b28712a4b0f017095a381ef86ccf9d802f1bfa3684b5d6f95e2f196c64b78d29477c45b80d6c5aeb9c74c6c4804389,
  0x680f7e44544afcbd05758f6587cc1540428aa5e966562a26358ba2e8be4369f786b7f9c00cae9dc67fb7d34d95b168da43b0e197100b5e4f7b07452edfd61bc400324a5e5fdcff5554f978fc68c1b3a6ffee277a320e25d01ed463150f29c9ebfdf00cd348540f93701c1af9258dd8968b10d922d70e66db11d47548ae3547c09a57f382d9,
  0x8fe76d5d2b67caae1cb1786f458c347b90b5bb5e1f1570a968b59c0f9af904ada6dc255463767309cc34d97e351bccf15ae9391d90ba509b6c682d7b42a1cdd4edc50ab4a99117a72ba87069985f149224befd6a20e28738902293bc527b1603f651e8d9fa335fcea95da30f3471c5deba5459d6592fbe93fe97fd2771b232cda5e0544dab,
  0xb2df382413dd8307b2fd6a5f08982a7a26d29f79b24b3c2b983f29a40783fda9cd6ff5defb5b2df407592b282738b626beee75bd210cabcfdca4007f1b1fc745bb54b46ec0e2ab5472b034bc81081d69211bf8ffe74f930afc905f83b9545dfccab396d067ec6372fe718b13bad72e0ae242bbb991dd7c0dda1b3b81cac8c9624dbde650da,
  0x14e2fe03ed1c8a21726b43de33247a45f3cfd17f59eacbed4b3e9b7df8f474ce214ee46f74639b35a14d9cd5160147b772e88042db8b17f8d19829d67de921a5078acb32c7b096f99b80623c3b611ec1c465250bb96979cd91cec17c26491e8a0886cf12874f0a87132f4f7a28e61642d9f77a528c0c2df63f839701ad0bedfde012d86e3e,
  0x6a4be54d9d0950c9febfee51f6ea92cad677d737554a15ca2f9a37c3d4805071a18a74cfd4fd96ba53dfcee2b9471d869ff4c2acd95d1d4ae8fb208462c1f6dea638de13520698e6424aeaa2c52acb699cdf5c2670e07ac662c1f123047f8dcd1412de806937e7deb595963d4846aa3445e299b44ce5beda8edbcbd97fa412db994f8d4d78,
  0x4a9a6a4b4c1ac73e65c6d60462768bf8281046392d9b016d2cedff1361f9277df0c90d799ab6ce542f3ca046cf96c51879c15bd0a626bbb69fe013a0a4518ae059d37b5fbb83ac87f9391bef2d6e3287d74c64ba27ab23dd1fd481bab853dc4c27705bd4906e15b4d739473e502786da4edc2db3d86f61340ba35f0380c246a78603eff633,
  0x6b4399ccb9bffcb54e9b6983ad2d9bca3837fec2248b3ad3ebbec000d45464a95a392ccfcf6f89f12b781d77ad1adbf86bed7bd6b59f7860e14570422cd3ff6ea0b6779fd7aed3bafc270abfa1ab5bf265094febbeabebf5cdde4bc7e356e09817254d2d8ebc8e7af0ad50da09c032058f465b05acdb7bfe21ba51791c26c294a4ba1eb5bf,
  0xb3f447ae43b2b6720169b163cefcad05892073ebb6fb1c5fb00e4c55859d5ea13fd4150d6e0117d571249b386ae08a32191dd568cf55f4fd990b74eb52457e782931227d718afa5c3e091741055aee9ad125c63fdd1203518f4890514f44ee2cc6f4927214ba4040f0c8ed8b7672e19c44599ce83cac357d27b3dfa9ae488c76f95da112b9,
  0x29fb6868046fe15fb07886e989e383c0f9161822bb52870348ab65c1c128d3ad900df06284b2f19410d514a40d5c2c7245a6b2ab40e3d204e1704bb701367724daf938f95c41b38299b4e53e659d9146d967155ba88d508456bfc7bf35021076ccfa460cb506b60daa4bd1157669b700168b3e0c0a41648ed4400c734aebf9e980fc6ed352,
  0xcb759278e4399b0a43bd53ffc9f9493601557760004e7839d0754272de0288fdbc7dda827a4a1c1938e489f50dc8a4f6f3b5990df04ed99b31df153d609e6a20cc2221e730a1e4704777a1d29f96cb84f5343900fe1ab8b7da9ba33fb84c2c60bcf17d8efb9aa2760c6c2719ebe46f8a28af3940ee4a26a89d9c63577ebc6e13eb7cc5438b,
  0x23410456b32a64e13c814a36833fa239e902c618fb14960e318eb2b9d1f8511a68b4c63ad46269b0cd329a4e14ebf717bacc9fb6a74d6f2a4d24dcd709dcc630106475eee827eddb7e4121ea814d1587e52cd59f8f525f016a6c21aac3c13215995af237fde6202725007e22eede5ac997bb8510438d266222ebadd6ef9ebb93a8cf6a22e1,
  0x6137d7442e52bf24a3a51efdeaf467ec0b637ba00e8c7649dba2554d90b8ba969385c117fea7785818478d1174304960d3ceab8f1d24139d88d697206e810a33f62c6c65db4765c86e2bf1d5e186bff8038c413d5ae39f02f05d1cde79751e57a0ba4e2ea6075b53c91789964c2f6d5310bdad9e12bbadb22c6664358591c7f01f205db04a,
  0x1d012777b4171cdac73fb0a4034077ddefe295d503b00d2e978f869e36fe4068f8e90883cb9dfbb44792e1f7f7750e00285480ea1ce6351d058f41b8ba280e2744e89f175d93ac2e5f6e840e8fa3a7285f08eb305b1515819c1925d6bd1f40777173ab9bb78f6d4c1c95bcefa20355db7185f14871ea71c6936762e2647116f1019621f0b8,
  0x770f11fe8df1fbd549dce01ca6bf09a082fc1fae9a7ef67f249f5b216d9966b743852e4ada20a5e5aa4ce63c1a93b1fb2736473423dbff2e5704e9a7cf3d170b58e68a84967424e1ea37e3a1b6b720196a173e304aa1f471b2a35a6f256cd357df36dc6cf77b156c442d41ce4b0669716b5b5385b0abc991438c4e0e01ab8e793646275cd5,
  0x9a9fefd87330c06a1f75c6dce4114feea0f79fc9076b83d3663d713eea322315b20e802e4bc111233a3a9de03bfb2a7aa2649bca6c67f8012e83ececdf65cf57b3962428d99faf8e053562a7a72179444f7fb2bfec33b8c4457cfc27f35a02ad1cebc78510ec1cf7819fd15f63bbb2017f18bc51967fee2d0230725a91f66cdcd13f10eb64,
  0x6170f915142ca46567a520f7d07df93f5f59fd5d8a478d0eae02eb7a4319a50229bccbac9df658b1bfe8de160eec77e21a5a9808ac37e640b49f1a0ea5340732da5500acddbcbfe4c82e30ef304a9dca8ee0f558078f639835926481a85c776ea4c68a46ba44c8d5362cea7449878211520f70726e86509399b38fc171dcf32ca5020827a5,
  0x95ddb76fe92af4ebbc6bbfb18a0465dcf0c0ee08cfb8989fe56e9a8c722e3958615f4d62b2f136fa45e498eb75a64c38724aece8302df16b7b8d534ad7ccf10076340008118895ce7c3caf77fa254bb0668fbec0d97afb5c04efbf0f4b6a55aa03ee965d1674675060cb1ee044d3f80ba667c37c27e52ca472d5296b1da10ed1427ee9306e,
  0xb9f5cf5be1d133922af4be500694294f60128e211f7041e9c04a10d40ab6c3f916fbf254e08454e0e78aeb0d79a36cf81c192faec8a8ebb4ca0ef8714578609da9897c0110a10688787e85bae045186ae85cfa83b7bbb62f2d1f8b229c148603198403da482367fd2a6a9b6b7e85d7833b2a82f76936fc6a494417f872cc833cb30d949bd0]

/-- fsb/src/pi.bin, bytes 204288-221311 -/
def piRows12 : List Nat := [
  0x4d802257e6ea3a8f46084c125e1ab23fbb6dd40314fa47176c5865177f9081015cc815465314c8a3c6fe5d59297b876dc71a1d07147ea8838b27752e9ee52d791eccc78426634e9232696f47b89d6b70c99ed4daac0d86cb8c018ab29968c4053d878a15398a133f99f6194382132bdc809e6eb21aa1bc85f6a676fd92961ae71507d16a2a,
  0x14671645983d047d0eb279d351854f42dbbfca13a12052143a27473ec37ef2b0b0c7db1e22391d4988575bfa5aa76b51caff141847673a100d3b5096a6662be1ee19c6d473374a6f710f75d671fff88c1175ef1fe425c22b388acedeee363fabd0a081b4fe1de8fc57f0031073988781739343adaca1f21c7e0a7b29e9f6b5e96892816335,
  0x4c4be04213b3482d55182eea33fac0db3d1467946b7cdd7e00e36f56290f35fd19a6a16bd43e3d06c98495a6ca5af80e22a32352d7bc34a7e8b3eaa72f3d512d769f25f84c865a79b75a76159c058ddd1e00e3fac2f745b9a60c839471c72359249fadf6b604772633eaa8ece78775310f41432be238e7cd1fd3b6e456568e36b828f2b492,
  0xcf496d7531389d68887310351a5076b194b886d1749df40534f5914cd54550bbf41f68669917197c8b0ea949d73abb064e902ab37ec164d4b3acac4647198f78017acf7bf6653215286678f54c62a948fc9a369eaf60b0ded6b4e5aaa70893a042cb9c1fe4fda054e5a4431a80020b4bd88bd7f45a8f730755430409cc2dc3968fa4ea8419,
  0x9883c993ae6690ff87b281be3b6c24e618e152190e2776ffb37c63b1606b7f61ccc99959bd9419e3b8e4259b2b80df2cb1f2b6e8333e4c44a55850b4a3ef19ad389c07f68fa054d4397425ed884d8f6529b9caa59869b85ff43367ff498e36e01f9bdf165b8daac40be033c40ab9ce84f69d51eba1e8abaae8e0ec216eed4421d61f0d28e3,
  0x96dea73a8a7a0684061868a6a314f457a47eea09c71973b21fded4184a497bd708818d34af7abe6b54425771191e1f9e67af0f80737a9d6857730df5b1fb51a5a6c82bd7b4664458fed297bbbd2883c7c66b774a2fdbaf1967cfb40b65d935e02657aed3294bf495e6b6a1f3cbc3143caa26042a7f68440d8f3afc6a6a3ded21f23632e474,
  0xeca15fffad9200f199b9b91eab25ddef17f963ede5b90a50b0ca1cffb326f63312c47863acc5954c3b776400612dd9edc9e05c34a978a7eb7e8a29ce060e9ebfbf95152dd420e83c633841d23db3079ee10191f59252c82bece6db447596e6dac3723dcc15fffc9375f985027d96323dc0ace562e698971d83e58995768611440ecf32c5bc,
  0x3297af527e06e97e4c12a285da5a4535b625fe912c21b602b41d7c7cd2306fae09dd249b4743db2f806a9cbc3a3c2ac057cc3e17da637f02766452c2f475d1d9b972bfa72788d147933b4ee1423760e58e73ebf8f81a2842105334fee08e807b83ac4faaeae5bf4f6dc4265a9f062ede114510c14c4d201d470271b537dcf8a14cfa06b74a,
  0x4b86d8247a099314a7247e0b4ad3d2712a9f9cdfeb20d24493fbc6c609ef99ea0c05b039b8b2ea2118467d0f8bdca3d4c8b6cbe973a9c502296e0182d43e3c167cd836834782f2633ada4624097b784773e7bfccb1bdf45ce9eda614e78f93a924ebb6b3dc36ad94375693d7bc7ba7b993d87a63856c3ce1359a03b2ab35b39600443ae70f,
  0x1b56e0e4f1021c92b67cdd468c1e00fc7f2ee56b44b6e51ea4992e3ecfb16b2484c24d44fc38a9bbce7110061494937c55a3c6b077e14ecf6396370e0fc9b277a76ec705c9b26311062b51a83b1992719526bdeccc776703725b4c1ead1a6f8533a1c17cc4393d8abcf174c8028bca0a4658bf1a1a2d33cc2891af4eff460bf023295689f5,
  0xdac0783cf872c337e1214ecfab16cf0cbc67a66e32a2bbfc9328405d9f99f19c14a68d68c6213c48408a4bca244cae6972cbb153fed1b09e749bc4e578d8b8728d236208a5311b8db0d37cdf9294ea1748d0d7254c1ae5ad449d200f91896be428af94c012013754e909daa5c28095fadd0b10aff45e2a134ce9bebd2da1806ed98375486f,
  0x55878a30eb089b0be430c7245b967d7036a196ee042cea7f38a6774bc0397e6d6aa3fd4c0c4a06d63a78e1bb75b0e39db0a74802ae7aaaa208194d4c18c7ed6cc1734a2b537589172f417c259e4060fb6324b64e41ab5edf2dea9d7bf29ecbcb1fcd9c70be1d726441d6f7ad5349c8ecbbeceb880392721e9810de256ea4a9c1196975de0c,
  0x28f5683a17779a22c40aab39df69a99951929a8c295677c929b1b02e0000e2e7b8f596ab8041e0912bd0e94855f5eb7f6b1b506dc35077976d67350bb5c059b07424a71c319289fc51ff3dbb61410c616caa09af28b363128a9d22a6ef4def24a701541953eedb7c7cb29a446174150f2dba9560f2a08a810ac7d8258194d25dd269ed6eac,
  0x33a571c81f0eef8a18300be4df9ba9636c708d5471613d383d23ebf31518ff7dc29a341af3e9f0d69558a35a612a6cee6db3128bc46808f8e8a7d876be53d47046893b5282c6e7df6e4112c694d8db7f985fcbd41a9458a577a6c51e79fd93837e9a82edb124a87511b41f4cf295a70f369b58b3862c115b2a6643e99860c9daeddd3d5d39,
  0x53f08e5077df8f1d15361d6f4c5d2eb14335545f44cc40c1c7249ddc6e3c5ff0245718d7e55ae2bb1f9d22f91a9d6d82d01da0b4c1b5d3b9e134c763fcf09c2a660c30b0909bed05df9d722a162db298db419803ff0b6ca1f94573fced4ffe84c21a557d8181f41945dffb65ed994f3b7017de43b442ca0a58aee2da955d39e660da87f173,
  0xf1b4c5ee11b023932e81c75b067c05a791a7d3e1fc0adc62adee185b4afe60477feefb978559b8ca9391b2cf076e0c6a8069cbde197c5746c616107a7f48f3dee47c2c0212ce86873f62d5ea5702cb7a05f3d128184f9858e4044ddc584085755e13844c928359e1c1734cfc4d7eda13a1feeaaade93b21b2a6f588267ed4fde4adf7b1d22,
  0x8dc3a7a468788a13be5ab4d401db0c23f752d66cdc40cfc0b283093beea512ae545921da3d8f578f82a9f86d76513353fe556f3b3694346daf2a0342556baf7c7884a387200c1a76d7eb4afe404da61d62421a310116efaed2e2c688553888ec40f23e53c82e3394cb5c5f1024de484c2fa40ab0ea093e611c1dcedb5384d4e46733fba2fe,
  0xe5455169801d14e850729a885568f2ac3adce0581ee1ab28c33bd0478c27ce3fed42bb604252c46e00b94ca54ddae6f5c7d33afe079fd1dcbfcdbe1086143bf5ad564d5125e11fe6aa98b28cceb4430c29649a4b9095a829b9bed034fcf314785fb42771ca09abcbb2c2f2706d5320463765529f792732f90317283a1ee9fb0a3af02c6462,
  0x02655d472a40b5b97060c34d1bf7bf0ea586948142e072ed28ddde59b94d4fde2e65441c98ed8b18de1ee1d272d202253aa9adec9f62e2e8b283ea7dcae4eb7b9d9d421ff2ef96df45fa49b82bd4b70b29066da7b7c8c255aa17aef5ab3e08f9005dd0be9b7c8dc0107b44ae5fd3a184ea37af32c983d05b2ffacb7d99f2cf5ed4ba9aed35,
  0x720361e11fe2b5ba25d5c6a869449256b56832ecab41951db6a02b3d7383646e5c62edbef7c455148d0c9cd4b4f6412fd31626dc4d0c45313936a0f80656d5db2833c0516941018327c634bfa7c928bb394a19abe89ff13ac1b8fb6de87a1147254eade3103efa2149ad398598b7b508a73aba726487c9c31cee5ae56e2fcc5ef15d28a751,
  0x25a41ca549b79a472d27f0bd90c0a5c0c3a5cb6a1f62c34030407c05604c710852e3b614dc7208a9f8eae1e362f41ded3ea1151a17a290fcab322aec8713eea1af4f60c6bb763d9fe3165c7f7ffb736d97f8fdf38802b083dc593ed31231330d83fbf7c2a32693cc0cf7330c5f4e668974d208a7158cfb074ceaf6104ccb8877bf8f54e502,
  0x6af6f13513800005965c0c709cfbda0a13d83297ba16199d11c8c370cacfacba01195aded918eecab6e92b09c5ac7ee9660098038267f6dcbc8928199c62385c40b3d7c2df1402932a09d44bea349432773fe3133c1cc8233d90d355d04552baef80a089704855c97400cc8f74b6a666c97e44a20fda6d91a27bd7b13ffeb55576b39fd538,
  0xeddec95891fa0f6f3fa8668eca5bfb73a8594c974897f996b24399f6dd7f60e1119ab34cb9acfdb915aecaa635643aedb232ed586f6da247c17acb1045f60adcb252ac4727089dd092e27e8eb031e4807ff856a9d55f3b49bf8716cfa22a3df9b7a482e8669374ef8326601fd5dd9fe3ce6e53c65ba339a7a6656e47168256d527332552eb,
  0xfe96b8fd1f1c76badace4c30c9d8cc3a02537f16117e84eeae1279bd7b3cfd145c1a89fa7c2f904af9d6dbbb2bb65f54ae6733212affc2dbeab45ae75762c9c747da61dc17bd463978d4e865a1ca53bec228492779316fba79f69dd0aa77647ca96138dff194917b2bd9748c628a8bd9b13c9f5ed2d028efc14727547f9cd64edaba9d3608,
  0xd17a879351b7d8676eca74cd15eeb3ef0e0e49e0273d6fe9132212d4965c0dc948211b13c19e6d6021c3ad9583adc72526296788aa3c683a916a07b160493f7d2e9d1e307a552bb9447596ad91835725515a353df245b661c409e46b46005c2a2478ec82a2b332d415143d999cac75cac27daaf79aa30494ba209b831ff491b997e7042b6f,
  0x230d6847fd2c1e88c67a1d82f995aa29d1a57db780154f20bf0f8184bf31fec10c153deda244435eb809ad096ba4db6e7384cebe73a6977635f32957bf87ef587e42a56284f55ac41843b13a4904e66e6aef6a97f0bf2c824b976c9ffc68ed2a1bdee44c96b35e8e04229a338b57783a41ac183bd47d24933a5e10c639fd6e73ce9d003558,
  0x647da88aff7b8b6cc5bd4b6d7094a442a581d3dba309b030a9ebf4d6b6944b4d192fcc8640e95788b562216d7f025a8fe4005f60ebda73445426d7afc79ab84add3b4809024637b67154d4a374ba3b69d2da2dbbc4415798027cd698680129e3b282a7fec3b0688526aa32d27b3576fd1b2a328e657ebf9bcc2cfcda9ac9a0bb5034f16e0b,
  0x922e8790f7761afd3023c35c2bc4c56560a9845e2c3cb86181a8b9ab1bcebe781dce178aea28b36af901fae0f58bc95a627046073df46e2649bfaaea790e2becdd9bd85fb969492ca5d52387fbbfb1ca9a7820da1742a009d05556246b9a87e80db3dd8821d490f11544e48313bc8843f36338bbe72d7092b7e3ba5f5eb5ef207c96644b49,
  0xd769402aa2418093d7cd3d13da9c9640fc5e9ba2f1a167495fa794381a4289e7400e2b995d1dbf61f8864979df82b698f3df729f3fad5ec5182fea9e9a29eb04b22ef04c2de8983dcb6477949a2f601e6f590429cbd0c7a193b964c5f1152e3be1028601bf9655debc3c6ecbf6e1275220f22efc5ae72bd4c2d196567f16fb04b0e1c48a3d,
  0xb9cd69e7628c12b54005e9fe70acf3816c6b0edbce772d51652657c21028a6e24a9150c502b3765a427f072333703e5087545bee1400199637c2563b795799267b1df78028078c7b019c5e1262b969effb88cbbedd2d36ff6c3f456efc0ef9b42a9813e1e94b58342f6fb23bcea6e61ccdc274d06d503953b986637fe83fb9c1120862a563,
  0x6ce698b86cfdca98bfbac3103e1e63dc26e53dfe702cde70d0cc9813c6a7505f15998596ccc6e340bd6aee135ae539b01c0cd2d3e590b5ed71eefcfa60e59e90a9237770df00aedc11344cba528359ec6ec4ba9a6df46521b8f3a9855c5c914473b72b9bac7ef3032a685ec3c00a81689ea15f680476697e113a944c93dfc20bc6949486f2,
  0x680ce25948a9ed3e219a30c58ebfd408fc43c9f8322a84ffac6410e877c96f5a0128b7dab2b2843df4c50b3d3158370be3b3597ffbe59f79f27922d90f39beb81efdd39ac8886de5c42bc560e1096355970ff4a2d6e964a13db0cdf2b7798c87d7aec02c8d416a9b4954f6a00f8eaadebd26ccf348e03b46735e8e226e7f731de72710e030,
  0x30528f12c3322b3fe32d3d4c34657296418a3f1946ba06a53615e24f7b02fe949138dfba51433cbc6cd1d911a4c64d55fd486f74958b462696a49b9fc47ff5eb9e3a16365c9beae09745cb17b9aaf8118e052e68ecc2818d52cd4a811b908b9e04e4003516ef17638028f50979135fa3c3db051b3ca6ca35a220b6e1dddcbf1bedd990d220,
  0x377289a5df3bbb67d24fb1d01241e3578251b3245584495b8437ba08f0ae34301caeb0a03d74d07666cd53d4967e72711ec6069b7ef407dd59e1433c46302830b1680313ab8f8aa65b2f74df68f5f2051272a4550b17e8f7d93980e7a1b7bf7a882c7a86028d4f26735b8a7499c50fe3f3d4d069a08042f39da7db7b95cbcb9527801f0eef,
  0x103aa79d9b7845ca963ccfcde666c29ee3199b2afce3b7478779d5808e1db17b616a278428d3629e5df9d687884ff916bb8e6625829b864194d48f08dbca15a99978915105dc51201c08d18919b9fa80a357072575571528fedb47f111d2b7736d85201161f8c821de5c98c692ce4e46fcf8065d85ae8bf0280465a689618ef1ab35a61667,
  0xfaae278825c0fd2255fbdf4492f798cbdbce7cc31cadd59e6c9e226131005dcbafeea6ce6a5846052ac85bd404ff8010a27a2574c163d6e33f0842131933fe36fc461b34d4e4652b73e2085b7290e3df17e2c8985dfdd30fe41bfb5cff44176fc77c6489a798913fdaa579aa3a935e461e488e3d13917af196b73d1fd5d6236191304f2ed3,
  0xe96eaea4db1e684c95bfdbfa5f791ed656fea132c0dba99d91633cdd51a726f394858342691de1736e95fdf9e2b3885e3e1727b038071cec413f5bba8aa5e0afad71fa227087a97b7f419549bceb145c3f520f8dbb630e69d3e1f594f67e1179abb81da4325eb02f3a0f3896911b92c3541d4c8e7498a4c3b3e7f71b0b6f34dffef37e72d4,
  0x35ecef5595f165edc3453ecf0e144b6be0fd27909b94650329b14393d16495984e75bf6d7b05459782bbaeeede228b99feaa8d953081b187fe9455e27391446b4d9c75b9b28d5de350af450edcc495e0da48868ae9a04fc9cd00114549f4aa8558d0f00dac77cb6eb0807d42f0dac96fd2b829c2a6d547568d69cf66132aaf573375f69d12,
  0xc6f81897e213013646c8b17e262ceb74ce817a1708bcb3e0da6c94341a22fb636cc8664813dd0b02c4919b6e98066c1916f6cf940778bdbc02db6f44769bf5e0719905bdd9d99a03c3503bc259e69af6f8d877dc3770dc44416c3b2b7ad4608c5f7550cda0d5780c3c8d7d166549b13862330bd31a44cd34954dfcfca89fb4ccd273f443c1,
  0x857d6382e96e2d7b7a72f9f7db50e371ec7035df0207aa37da14d7e601b0678f87d0eca394a59485c21fd962d4fb7b00fde7971c5885ed8f9f1ab486ff77c1155d3fd3c8b516fe30d624c51b4daf8765a0b9106d77645b68b53d0582ef8baa53c4bd9f63ba8d32b1a8bf84ba0560854fe693e68d0be1ea754cc6331384467fcb0221ac6bd5,
  0x11a470205f66cc01ae97e8bcab7958663118ff66cccc9e36c2533c49acb624667e30e23737803226bebfadcf89655eaa96d36faf06890db38aa50870b3c70c6c49ae3a536af9b3ac71c6386c0622c006d2a190c46ea0db36e837850e438a95577e9a3943807ec0acd7ae66ad8987a8e36f972573a345bca2aa375352ba83496a1d1a0d7fc7,
  0x0bfcee0cf3d3899dad3f4510785da8d4bdace6b9a749ff5d99d825644e951faca270bd58ece278a841bcd8dc7e5380f9c1048e38361c04c62e4b62f5d97c758c05786142e7cc0dd88e71952673d5cbe2c764aebf3223bb5d7ee5eb3e06ef89360e04bbdb66703fee43892a3909cfc29a705e350499373aa55613c20a5fcf33bd5a3e3df89f,
  0x3d1b517410445a29c1110d2f7101e6e2363b6a8ce74b07d3595e82dedc677f551c2ea8b1232ff74f9f9cf6780e6ab357658577a9b5618844cc7520f3a69463434183f18c04b6e1d2d1e7d54a27a5010fe179ff2b398766b5362c77d6175540bcf51558347398e29f1fa167b1a083d6c9591757e4640e1d5413c9bda56c3ec7b245a49e87b6,
  0x420a94d5d40ed7f41da8a341e778c47ee95aeed7722ed3903edbfdecfa5d9ceab911d8397508701fe53f47fca41bbf6921792aa7a62480c5a80cddb8aa6d0ebdb0ff6d05bf0a806918faa57bd006195385932af2278daf09c28a5aebb77a7086d097b97ee767f26c44b53aa3b622f44f0653676a85f2227b22ded89802defebdf15cea1226,
  0x41377f3c9e88e7d78f6b966d88f74db303b40db4c094fcd6e7772a5744e4e7ffa858c5008f6aea7818ebf657093b9c41ed631ce0caaa7ee6a812fbcf1fd714a60e8cea2ea6eb82ed793dbcedcedfcaed564cdf285ed89a374db240de218d78a1971b061819a0ba25ea2d4c96b406856614824b1fc51792ece21621db4601a3ce01ebb27964,
  0x00195959e1eb784d5d4d4278f859e59cd498957b3a197877752e0f880bf53441efafa65301cdb9a89d5c847e81d09fa9eeea87bece29bb54b3365b042a146a7c26a0b97539773211253b528a704de281680a38f51b747dee1813f982a15c82a64d3f294d1e39c63be79ddbbae4c5df743069c7012f566b9777165e636157eef19f7cbf8e44,
  0x9a55d0a0efa35a979079f48c06b68457fdd2d17fcc3fd8b3be2dc0aec62bb65864a10c2dcb416db59387a63ec6a4017005cfdd70583eca8c16efe32d04cc6102fcfcf2bd3aaebce20e8095d8f4c3563abe900ac62811aa3558d7a42f213bb1a7f0f74af52847cbdd9c7f411555b6529d9fe9a7da642c8383c6e110442c03820b530a7bc07f,
  0x336016137871d8c1a94b71ae621c94ac6bc1118a28136d8b3f1f1d49fb0475d21789f4280d09c831778c94af3f829458a191ec6c373d83aa8762ba8488ad287c68be1319e0e3f2fa5f99e4b776ba16dfc0ec0446de68c3e9f61a248501f0ad89e694d500863ecb641428f5ab6d7dadb55006d99b849ac3cedb4dd07954b07dc5f4babe6d24,
  0xc0df89d3d78fb6bda7ec300ee2328d390516d413b6a11a15f4bcc7631bcb20040e92054c18b3c260bcaaa329f14eb0f41e3d0fd7fdccc5ea86f8e34ddc20a420e25e2f7254d70db43e3423f97beb1f6541802c5d34dfce1852cd72208351763c27e4dbbc4865baef6bfbfac08628d29a3e72b9624c552317f2baef6dcd5d411b1f643f7d05,
  0xecd107a1d9583862bcb7a9226b2807b6436db00c81ac5a8b56f70999526c08111ced6ce2462cc98d19e23f28e6514906feedcf829362f93377d447620bc9e8136ba29e4e053254d46ddc154880d04e495f66154d0082f883c9a89e2b98fcc9cad4a08a9a4de43e70a8eced685d3957e559f0a5020b4273082c5c406b2311d9047f8bce7566,
  0xc26a2537f45f32a8e16ec3942a8e7ce3de4caf65479e47e59964368203dd37924dc27e3ed3107a498643fbaa12c6dd020fb80f7fd653a8f6aa2c36923abcf69df4b0f050240942ce3d6d50f16b232c10d26e49272cea51a41418f63973756c1053c8566ef2eb3f2a7c3c2a9992bf43054591464a060f1185947330e974dbbcde92cf8a2236,
  0x44b37689409e808dad726c184b7147ae2847097ae7faf8d6d89dda480aeb7ab85ce2ae42f195448d7937317d7dff338b5ccd5300aa5ccb967b3067d40a5001acac0c29a81c11c88b347c08c1e7d22aecbe2a6443dce8b18fcf6b73bcf1a8c1380b37b1cb6ccda8a77d8574ad205ad323b66d296c76118a10ff56080245a11af8c4977ce11e,
  0x311881d9877bf6f7827a928abc44c868ec8e867d7ea6801631af39947063fbcb4212528d50bad2106b3fd3388958dd04c81bdbb1318c8c69c3dd45615d5a4a521fd57bcb3b2e332b26a8f7fa7784506add575db74a6ce6a84ee2e0d56564ab633c759f4b37c677f1f48f355d84582b264e4b43c023de16c7a760f184deaf887f4f8dce3619,
  0x4a698762aa99a6b340e8de54f234177e6c8d5fb51898ac00befb46408f829c4add449635f944b5fccaf584e11b1e226c824cbc27e66dc5e7368880fa495134ea7ec4fb5be378dbbab72bccbef4f151ac445f22f24cc96ba94aca013291cce223e0dccbd4398839a6433b8b501032a057dc324ade28a89b62dfebd2b310583edf61beb5be21,
  0xa225eac693cb4a65b0dc2406b68358b973742f88c188947c98961920311420997a4ca3f72a8f0b65492b2724923ee10c3503984ba27b47a075b97a7e909f63e3fc0184eb3230ce9a1cb9acef033dc54d9490901dee2bf4ddd60fa39505a42fa411c306cb6886111e2ccb3e39b607904b00a0e11c49a48dbad4f028eef0837838f618b8b47f,
  0x46baaa1393a37a63c6fe20664d4c6502f3b064822613755a995be87bbdda46752c7e30e421f66575d0cca01fd5843c4bc082f6d65c92d6d3363c874871fec0f02dfe174f918eda4bfa6c6f202beab9d6f68981fe15276e9bc3cc5838f318664bcefb2de04773c783652f9b43cc62a82cd60d701ebbdca69784e119f3fb35b89d9723871266,
  0x991e0f85033721129b0810279d60efed1b2d0f85547cb7e096ee2fe327b6aae3828181bf0099a3daa8522fa3412f0955eb4929e501cf41f28c7951d5d1189492a0f4dce388ea1f22f6ea5748aa30482b8871d4d6fa1dce51a05e8753749be810ee3eb75db8c2671991e1a393896caaed602e5bd7e8e6c6b7c16a52bb6e7e842ccc8a121bff,
  0x182f9a591f1d4d20b535623fafeb8dd75f4a8906fad0dcfda14068ed62b2621d15ef7de7dbe61c8d3d88c0dc3a1e61d0e2b87b04ae06df8b838150e8539530f1fbf7622ee98c7af6459e64cd66ae94ec8cda31961fafcf9a4863ba41ba2cbc891a3f88094445f5cfa4cb247088b0f4b2027299d1ff5debef7e17a5d1b28af928dc42c25d50,
  0x5ea97b1cc46f8f5c6a4a946938748d94968cee1771a5bc8c014e85e19e957b6722bcd43b04a3e325a752494e1f8ff0befcf6eaaf8bd23bfa1379242ed955160756ddff891edad85b639ebb64d238ede3dafcda57e2b3eedc24484250cce37788ea6298c955278f51c0b829efff2671ed8a9350c093e295c7eeadef3b50c5f815da2e3c8249,
  0xe8559b78f8bb860a3a27e47de0bd02020929f88543c05a9d43dac4d58b79447c70fe8b98f855c12c273e5b0908d562158c482aa43ab6e56da6ef4eaa2e2ad62472f28fbb64a7b474f371eff12ff3fb5f21573a90e1d68a1e1a41e6959d2b7bc1b687c6710a6190be8b9cac0e6cf0ac713f29cb71d5340aa946f55900bbb08d3c3f09431403,
  0x3c32a9feeae0feab8c840fc63fa84d09b7d3aea957599759b3da2b0817a1b06a546e1ea9a169cf647fcdd352f5daf08b56271577c350b324654391cc47f2470aa46e5f0e8905919184889fd96db7bca70f997a00875a9ac708dc7dca12cf6482c03d9af9f04fcc30e7830427191c73fec0525a9533797fab421d738d08dd166cd60e94f0a7,
  0xc3b8ff496648f7d0135bc77eb55a559d3b220460cf9b3df2b5de571d51c8fdf282cbb79c4717fc6ff213d643ae7ea72b644e9a3cdcd5d7ade87cfbbb97a89440b3a14c6a390967fe284554eb88caf2a1343cf31722ce477723e80ddea73a507f987ef73d46c8d08d6063a40b16e020ed812a37fec5b3d066550b07d6fc6337b1d5bd3c0bf8,
  0x3c5405d271c156238ab57cbd36aedbcfda13ab04846501532f24a75a8f19b08c3a9fa3a85248c0cfc919559c63540bee4a5b67b488c3089a2cd28f90b060906a1e75b77fd0fc36f6b53938dcb3f1f53d0e866cf5125cb7782f560ecd62290088052aad92d2c319caba582e3b451c84225f718abcf88b042d3ad74671060241da21f571aa30,
  0xdccd8bf8b2edb3b81918377f71ee77a25e5aacf1bd9c5fbdf51437a7050f31dea936558ac5b73a2b71411d79fbdc3f40c7c82e6ee9dc00b60d24822f2c00db34a97f45c02beec39bfa0b81b1692759fe77b94cbbbcafa57cd3c7c13b5e01515e4af1adc8dadfe002f79f429f981f7408692d0989d4a209d8f0f4be0949490ccdf396ee1644,
  0x54f6710948916df3e5e51b2ffe20a8ef6161cc80f44082ae4c16406e27bf7ec4e8bc711fb24d383eaa47ca934d63200f2c14f408daaf32e1defaca0d69c3f4fa6bdad929915e7b3a408f33b5c06a4c481531d2c59f93f68ed99f2ce02d4e077f646ac2702b6652d1f950c9be09813bf210002b6b7b737eee75972a58e31d543073adfb53ff,
  0xa1256fb7583168c7f0eaa6ca642a046223029fce2786e6cfaa455cbf9a05507c8482daf021f1f1d923ac04e02011683f1045e22add42abc884f8d8aa850e4173e7cc03991a0a97891ab22814b305c45a87d9e1513c8d33f2d0200caba6498223fee7feb3adda810841b78cd4e4de6be2c82fd729240ff304a16a2a663a9b0eb35451981e94,
  0xecfca6421f8b0088149cd55b1e5133edd8162bc84deaca2c9df10ee990c81684c0d7098d65629ebcfcef73f8d6fbace0e520b8fac1bce4c54f3b8906c54dc8387eaade1a4f2ee1b0a9c86f9dac03a8b5273477d2187778a9fd629afcfcbc67a9aa71e022499c7133e2c3f41bca5bfd37c8635267908e97349745faa7d033c4c3d67dbe7103,
  0x4eee9f852ad9ca23c11e27f250daae764a14ef7b1342b0fac04f96a1f091781d9b79e3f33a817f40ae42a9f49f04ccea83aca3be65cf334acd6487a30ee4a8450f432a53004231803bbe6dd8c5fafcbd66cb4d5f07fef5dd53966fa535e471755a9e88428367d0be7a3092e1d091dacdb099c4b75f9d1b6f24181de26f0993d5b81b1ccf03,
  0x9fb6668948fd22da42113ed0242edc17c86ba7467647f848ebcd850d0ce01bfee5f61bf84d8185944893be39d3e60d9449f8fb8fed1c4489c30cc13feb7420259df521215bc8ce16c846c58bc761ef99082a317c4ebd6932a79eddbaa84050620caa27b4845e5ff0503757ff5376be6692897a383be31c7c0e302215b08623b971887fc75f,
  0x37e77172f870ba4ecaa634ffd63bd0c779735a972d9584d6c80f3ca958324cdfe974d4296cc1ed800ffedaef53d7bfce113eae24a49778559f18c84f030d4d6f48a19d4bf01fdd9efd16ed1b006a8554f8caa834ea92966c21451f001895d4f0a647927d8ca10a7722412acb762be225f9401181f7e0b24c6780e621a9d6513ff70b268bc0,
  0x4220b4a41e2e7fca4c12b4b32fee0cef58efcc38241e6e4ba5815d89a831917d0451c066fe52c6f1b3322a9748eb78223719230c279e0117e4f17bd8542d5b436529b70cf2bb6a269db042145d7b35bc07b2a446643be8c84775b9010730dd736d8ffeb078264ed00a93a89804783ac1824ef037649777f42f42a75940f3f77f344ee22a34,
  0x54cebd5592cdd83cfac3152d1fbf240bb0d8494938f0fa69ecdd532e792b19c06dbe2885c665cb2aff686939a59f22d8a87dcc034e2b5d56fde8607468953f0718d652cdf99cc1931a9dd0f8a600ecb31e1b32e7a77276efcea736bf50d994e9ac6cad4e4086994ab095f6fe0898e1a157e215c2daef245a2ef88377ff7ee8cedad58084e2,
  0x9a3e228313f6e452bd6a4770bbd395287a8c2022ddbc211e571c30d70ec5d8b93bccbb5c2c4da405104c7bf7fbdbfacadae8ccdd160797902f25c8ad36a6b52d48862556a3c9e6f69191e564a76ca73a703baef91718363b5d01e4115caaed3a2d2aac17c8aac8f3634d40504ba2e81118eb8e8d0077a032e7136187e34fa4d495b2ed06ee,
  0xb50b6557795d33fe180f6749c1f64a85078e1a31c57ebb8f71ca0b787e31ef85a7e085cf1d8bb0fa54b2f9f12689f222a17fd2393519ebb38b8c3a58faed5fedaa04d215827cbbd2381fbf35173f1b6b58ff6300ae53a0081c7e247c8305a3ecfe271b7077392f9261ef7a0acdfa23b890ef68aa40334eea4782b3358bf79ef3ef96fe6d7b,
  0xe20f8174f9b88b73f106fa7362b6d2d95793589f12586381bb387d1aed2a4ec7e3aedb7e53978ab44e330d93d4b933da36df45776e95f285f1eae4fc14bb613bf2bceb0fc910149ba8d9704d071b39c1787d0f7d4003341eeda6c2e864f8a0a5e7969d4930eaea9345f322d48be6b38c6eafb31186d94d1297b19775c3ee9b376f82fe42c3,
  0x2e5b6491df53da69f55fc24707c0afa06afdf8f2085c70117877b5c3a58348a6c5f02d44a02a8eb08682d31469463e819b41829fb5292ebbd4a44a2c9fd32e15cbc875f46e8a76ad1b815ad06ee12b39dd55b83e30b3e6f7fd1ffd043c1cb6fe7c15ee5602d0ed28e517e875119671100997b75167a5ac639f19e80264e2ff1074f1d86fd6,
  0x7a0e6f62f61bf0a2bfdd2f11143752ee56f32b9cc0d35c704936b918c02f929b091fb2328119ff2b0c961683514c9b0750a6a17e904f0730eec4953adb2743ac693ed33bfa4c30e8906c5a9a8f08d347c411eaa2127a7675499965455e590c31385f9a8cb0768c82a13aa2e03c1ccd4e02fe46f883b0611fa45affe54b11421123cd32c05e,
  0x3462bbdd8996c5861dc9fd37514058b17528cadae254fdde1b8e7dc152ba816927be33e4c4acdc3a8e45a0ca58517d359645b94e76a388a5054753dbf158c36012f24981228adbd86c4c9b7663906cd84c6a2bd3b97449f862ad45c5851906a235406378efca48934c697facbbf9d4277d5ffe13c9a469c891c6faf5729b30d7062cb4b7fd,
  0x71625be1cae06e933f2898a58eb5e7837c79e13c1f8b7f6a0ca71781cb3fe6c36e6705bbaaef4198aa49bc0fd12436deb90b17ed5dc4ef238659bcd53532bfce1e2babb29bd803d7639562e1504119ecd6ff7b1240914fa0c7bbb515a7afac035bbf551c091d42655f72a6ff05bd86cbc81d7ad2671f2e05aff409b0bd1f8954c89151d045,
  0xb11fe9178808c446e572c9e9266596eef8618161a768038a64a847fa44bd9e91f6bebefb28d3a4f7083e9301586c65b1c35e1b4cef25b4b29908e9cbae18e806f626e9205bbc5f02f5d46bd79a74546b4dc8459539ec7723ce2ffacbaba76f0f0e5db88c1c5fef10b22b6c8f3f15087cb980686d122f9eb5ea7d7dff44c51a0e80f8471810,
  0x214966d7d7ee83cb58371c530ba42a88bafc1200519c12fa71748ff29b194af70722a7183ca19de3a2ea25b9bd0ac487b459c9b8440070a694b706138e3f6f9a34394389630e9dff796405884e13643595ab07080d5db72f3790db9523c5fe63ab2724ec9e37cbc04a4fc9dee1e531a4fdb9f634e802226e75ae91f8eab3a99e6dc5d4a174,
  0xe5645ed687d4822fce0ed968c67e565cd2d37ed1f00a9219053b7c395a607896317168ab42355b77570ce94af9be51fd2b187927a1cbfbea03f25f16370ffa47dc14bc2783887af23bfb7f656daba8066fb141eddd2f4822946b9d14c753b76a9c4412536aab3fa3f16d5e111ed87e4aef9a7a20d0db1a8adae93f30fcff6ff27df7b4454f,
  0x35f2823d39944c028afa24a4eb2cad43750ac071b29f0d4044661a23eb7bf2280ec0e377c4b95af335f5de1c2583dc495d486981c2ae9bce3d728f0271ee04e941eb258faea8de4be1b7367e944d8bac9dafa6f20c4048bc6976e3d8d40b97a6701d44e1dd37865df0b48fb6aa596e6bca59323c32a5311da2679ad7862827733a02100e49,
  0xd7abf3422ebb1204bc361569794f1053eb81cc5fff800e3e3dd6aee5ac5d17022585103e9dd7458db020065cf866005c4687723ece3760a744b24165043da09d618eed80feb6478a39c95ecb1056e3d0d1a4777ec6063c9702356ab358df9e689c4ae2764b3e7d66371a94d77dddeb39904ddb84704ce19228e4d8f54779a71c3e31bfa3ed,
  0x80c1cac5b5e68e92f8b4ab54f2a730a011be8c11c1b9b62e25e0cdc41bb973f3b55495e5ca1b679c77520c7ab21ae70d224902846a2a0be9f7d08c0d34aa6be8738e85bbd96dfcbeb3040958c8bd8d758d5970164ebcae4b844fe805b10af9a2d7aa9335e695e31cf61a1c71a038ada705a25f4cf4c98923c19b79be3473615085accaef45,
  0x83fe767494f4cb9c3e763a6018051e212aee4191f9d8ec3b2b2d87a8d6493a0793afaface500a04182fdab32b87439f58110a4decc6aeda15907077a4ce803c5ceb298e536582158552d61a7fda81b20f7b6609a828aa3c6453d4e0803fc1d3e7e3cfa4a6d59ecf8cea68706fdde00c67f9e85dec11fe98f2800086ef537c4a49988b3e3ca,
  0x4ef710eb1e3df0c70e941990497e51047039d89390d8a49c21d637e49a7278f7c25a0a9ec833150cff131f804259e555c8404d5f59ccb3bf80c3aa71a6965641ba1b4ab9f9c554af476608e823d11127cf622ee958cfd76b679eba7b20c2848bc456374cc541911e92881e129f7e75e1cf98a9dc4600ba5652c738bbe947b3fc0459974e58,
  0x44c6bb1a0d17e213520abd992999d791998baa5ad5efa00804bcbc58015ef7e4364bed7c859673602a33fb39a47b7e5ff3f0d9202957c6763b4f1df865dfea41696c7e1cf2fbf0eb57cd1f30a12ee924a66e8b386d922923985673d0fb3350cb06b2f1eab4df7f826e32d251c6e0cc8756f93724f5ac2ebc89e71dd1575fc4239bff4a8caf,
  0x404b56cebaef25f5ac128cf3ee732f47c411dc1389b5c8862b5e7c01a0ca004f1589438f4d6aa6e4f1b40bfc5fd7cebfcbe8851541f3f1c9bddea085fb71a12abbbda68df30c263e25bcc2730b41789fa47202002a18371c4d8c1945c935464a93688132ccbf9e991568f8af1794158f367d198754861b5504f2356ed733626a708ec45cf1,
  0x1174e3ff8ac229dc461d926ee00ecc7dcb2b915b9dd67a85fa78a9c57f2915f3c3bf000e4b68be75fb21e7b221eb7acd2ed36331884904f3d9751493eab70866032ded32970d761d2d287e4110c40f492ca7c3f7d113b53e0e93a4aa1c6a3511a49275e9d17b1081b83ccbc53d33eba0c008e516a80b70bd48fde60a061ba2bee3cf5ef2c8,
  0x428fa640347c4e9e1a6e7d3e60a4d664ab2d4903e2306e5b0a21fad7e762db04e79d2bef9e68646a75d7ff971b51a85b835eccbdcaf152662875167c2a47d96d873a022c4ea677a7d90b977de6511ba477a50e15f5ce2ed1b9de9f85d6e259aebaae3006b35ee4b5b69149efa3873b89dd3b7dc72c1165992edd80920ce70318640c07cb87,
  0x03fd94d9bd1a8cbd79dddae82e6761132a4a65751d4223d46dff01564384961b7466c0de666aa4cf6d67ddbde3bd62f896cbe5c7355099e904c5b13df0ab56b1a5991f86475021c21bf7ab7c34481c600b55092a2b4bce717f51ca25c65edfa74918c8496fe942f3c346abf48fa943ba7c8663afae4c63e769339b4d531bb226d44bdd8f70,
  0x3177ff82e703d6c5039650ebce0d5ab87254b7d6fb5325644b47aac5ea815ff8126425486338c2236f4da1a04fa38c061a6ae47d2dc69b937e2806ab7fb726007339eefc0ef229581ec29152ea937bd894575a2314eb0d5f3142c479808d1dd8d67cc0062736d6f8c2ee78d70e7a3c4c7dc8a600211e165f44801538440ee83226feb75262,
  0x84984ea3c09b4afc9e659dea1f6fc71a30e23f18a2931b9fd7d1ec5c1e977eec601aa4570615e86112a60a951c1904a131fdfb0eb6304bc7d57a685765c71e61535926f55dd237fdb37394db6652060cf8f7137595841dfdee4a04659c96f0b9584c366d8bc51a4e9897a6bbe8f208a44fedaf961ceb9b129f59961bfef1bc8733537b02a3,
  0x5e6d82a3acd8745d8cb9a1f1e59918b7aa79f81e7fc34b1d133112469b348e51e396c0ab1ba749f40575e7dd732d1bfb1256c8307672a882ac86381af8c6309323a3c908486f4d8b315642fff3dbf0d20317ac3190e63da39a32e51d149cbacf6f163220fdf7e722cffe9d8a57fcd031a7d965d886ebb090b06a21df57c8170c35fc5c2051,
  0x9dba645baf258370236cdf649911e6efdc545af6af4eb6d361e40f1d3094b2825f8d785d5afaa6c39b68b8adf1152006881e8fbcc76ae89e9fb891bb30c72f3bd7949b69479f5b00f678bbae02f1ed45510cecc6962816ce292d89ac835e91c031882dee9128e69e343a740878ad42976fea94910a6f8909477dd2a410423bb4e88b1d73cb,
  0xd8ec50ff9b5d8ed241589adf45a47f22893979c787e9194fb207fafe21a1ff65e5caf9fddfba17aa9a5813389baa43e41549b2cfac2bced9211204d5b37fe2e92ec9798c7b1690f48f725637ac92697324228d106172ec3b7b084c943eca3ad8e4fcdab6b71e2918d4def4348107dc3d86b276e3052549930b39b6fee123245cfc783978d2,
  0x1d9b73050be336f451e257a1dced1eb398ddcec4169624c9ea039357faa289d9a0c355152450c3f84e7111b888d48a2928ff93acc3cc24e7f3bf772402137d06e4ad4a8234c90da2c7dd8784848f75049718c2941ba510d39e04e9447358fbb94e6281e2e28619ebcf6b1b3736e0dadcaf66fc3fb1e36855162ed80fc581665555a2a6f64a,
  0xfb06cf50f3ba1cdec6b13c4fec3f0f72d8a74167657f4917bdb6ed4aa6930b4ff403936ab85d0e2b5991f61ac9ef3d4a404bd99968b3a6a703e8453bf1a05e58b80806876a13a7144d6291e4696668786bbd5d9740a67460db8088f3e89bc31776e14e549406c025bcf8d0f82a19a2b7c445003683dabfe15646416235fc6edc03fe0d23dc,
  0x5bbf9d5964d598bb4738a2c6851cb11e9bf54daba4ff6cf9a521cf7e4425e052fb15b37c8cc2c38b7f095743c08fc733dfafd3eb900cb74eec0250e7405632a1598cf43e39548a033ff3c60fb448f7155c09ba28cba140f34b587dd4fa2504a81948c6a28e71d66090091b95f13270027df396ae17b4d6059270e838117cb88130b5b05888,
  0xb3417b9e67effa0eadeac171626de725349dda4fc0a3ee1917bd43d6ac4dbbaf7fca30e8c4ee85527360d9fdea836afdf325872e2b5ae0fa142038bbfb65109bfbe976f7dc3eae05c2c39833f87d7dd93bd1ce37bcd13136e3fbe845f1e00fe4f747a168eb66925a7d02df8150477946bd24de04b846117c5e30a588febc3edb124922377b,
  0x332e2f98e6930fb23f4bcef478011a733f4f6631849c934f1f9978f75b29b3ce29df4ad5299a7523250fc7283609786f018cbba490f7a97b8442a69a2d7e327a44b626eea582a835994c60369c2c94b347f261ba02ead5b43959542e057573cf58b181bd1140422cd787fc4ca1c07d8832b3b45133c2c783a1821ae3cddefdb40fb1963740,
  0x6573d881206a4556ce116eb846d1d6021f4fa3014722e5de7ba3056a555ba9f934422746564c1d35e0d90bb7a1cd5f7bffdad1d501f501556f63c7e04bad14a97d9c3f936492a30a9e5b2f0049c7f272b3dfece1039eab0bb922438eb9f574307d3f8d81540b9e7a98b926a6fb5eaf216580b30c291b80b83266e2833819fde7f379e930aa,
  0x8b51c2f89a9a171f44532d4c99b24eb0d20c5fcc6d862e422279bf8213a27cf180765f7bd5b01ddce9948ef534cdf8f47243a46b3641c599f83f67f247e7500afc3fdf8b2d338c135c043dcb84ef9806e60f64782ab8698159be4b952d9190dd670da7977e5e624f2a1c3f0c58028d29d7f0eaafdafd5f262f8584140c3fb8abe06fe29c9c,
  0xd3fa0ab044bfeaa6e14ee2b559771b81efea3f1443348619fbafa6b06fcb2abff7219e412cc694b4167a9587109eb5637fb92c234fdd9489f61a89996f383a3a0ddf560bf6aef6fc74234a97f2356ceafab00d9dc51cca128f0c802f26eb5fdab688a859a8e5eb897aed1361f16011830aee996dfb59a929f25a84217c3ef94202f4eb064c,
  0x76cf6f9fc296fd9f8a1036f641797c68a3439a0934b443b01c1ff56fb867aee6b054b246491b9e8da60ba3f598a4ddfe25e0e5b5699bfeebffd9b5d8e05a0dd57227da45f88aa9b5bf266d89155228aebff26757863141f65e2b6547b9970c64ae5360db4e3606ff73d1787f39a6db62d388a3bf613dc111736775cfc78d4d9d8a2fbda4b0,
  0x575d8bab7da63a143b3668ebd0aa8b81ac994444cd35cc8eb06bfcadc5b5c4e22b936129882f6a707d79261650cf63e910e740da97ce520e60627863be5be0ec56a9fd602068e3de58bbb6851e00c9130bca8e0c08b252ef10762b145eb7c16474d7610f41a6fd301ff34937215678580f6e10a5556efa0786b8e26e0f6234cb1eac8f1e16,
  0x4682ca0d83615f11a19ef17cabe2eb984fdf723b79db80eaf3897e59071c3d2769180a61ee5fd11c592f1ea2c3cbdd9178c0cf0500e04eed366e5c48089b1a847724a87e4f8ec2e4f762fca6ec398b3a07cbe80e63a1829ffd2916dfa7efc65bc9d7bcc289dc27c189508299f9d41c085120805ec7f3e2921340bdffd073950999117324a1,
  0x3e44f75646c0d3784211c5c38350404cf28abfe1b2f67b3672c0efbdb2f28eb95fc3fb0d2092fb9daa98e864dc0c24684060e8ae7d5a0144c65ad13d9cfe834e1f686d092ea7a732495fd8a626760984ea94d3492bd29669cf34525ae88bb517f28b3f92da6ffda094fcfa7d58386495065e3bee673b71492b67def64fa28492cd91a86b6a,
  0xe745ca5a0f9cb26a6c9e7461f4e17c2131bdf7416108f46cf45a001edef33e0058712ab6449bfd10d40afa5f9fe31e937152030578d77b8f11ba9d0a56158e3db1aece2a7b6b84ad01c4ea058a6701affd634e54499b41836f0f83d23ded8151f210b0bc266158f6f2056812ca8be94a4a7d7d24006d4d5cb540c49f9c16bc7b15eb8a2983,
  0x576042b79c2bf8cb2be647877c81bf65ee273e18eeb1859c9fd04de9f5eebb298ac69b1604e716891c05e1ce82939c9bd45aab5cdd84af4361086918175ad1523afcda008f05623936c4a21572cd11c5861c35ec2734927ea31017359f225d4760542b306fb4f7cf97174d3d937058867ca19c55766364fab71d203fcd0c35f173684f1569,
  0xeb3b2547e3af0a4e567850b3f8850406dba102a82f7f263b6ab26394f039c0b00b02d17266bb99980997e24beb477ce6c641d2b915fcfd443b45e4fbe0bfcc634b87772af06a22fc5d11d8f8c891633b5101018eb37b3db4bbb8f602935d8983490314307f8522a90c4a139bd1f70bfd263b6a46ca9942a87ba3046ce36660eb3eb0de1d17,
  0x154824161f7c61daa912900c5c58c98f1b36fd46e47e53da97961678bb06b96f5758f5955aabd37e7d8dda793c50b66817f2d5cba55719568ccf94099878306e0a28faf4ac19ecf97d056882aa829c988d7d927824bab96b73c4790fffc6eee58c1b8ad3277c1cf79680c3edaaa832ea3aef3dc503883e8b6d671614b87e9b15b8685a2a47,
  0xf7ea397795d1cab8a4245cbeb1c802581508d6a7f73f2d7a26ca0c6fb4284deade3ccb648f5afb788ecf9c2c209b7ae182cb27d6c21c764847fdff26ff05d88f984787a74935a5a4fc3a98fab39f3e97c8e7441b6078aaae82bdee6c75164d981d926ef1b3d278eb2b310aacba68e900d111c20e73118b530ca6c97fd2620c827066620e31,
  0xb5074771d1df5c960dce25d5f7a005234765c20bee0f80d093f695d3780fac0c71ab8e92965caa34a90f72aebc58f13d5918579c73b9cd8690900002904c44c08f7316858d5454d53a16419d4167553b68e294242693ffca75b862749d7c96da0c94907e74dde5ad8bcbc9e4a7ac0162b05a8dfa7304c7f32bebb4c4f32b5663eb3944bff4,
  0x81f82f20c90ffb4eeb170c49ec349f8fac1d96a10b97f43d867b3f94f88011ddd68ed522e2b563e68f35e5f8b2812cfaf1928577f74f4d78f1dd2a68dc135d566c376f38b7e4d8bb3097576b7e777ace4d59486e8870f469f4820bc866cf69120ed5c59c97c115b10c9f1675a5ce542f2f0bc54550ec7e388a402629d98c97250ca1db17e0,
  0x7e9835c47c086d042ffe63c4f2fe7ebaee6a0225b1328a5757fe5cc1a4dc35db5424487624e23cd1d7d4b2794817dd145cb1a10a42955ef7033cd3cf685eb83e60ca47d5195f97f094a508ecb2ede86c4314a8bb61466870798d4d6390dcacef5111bc31dc17bc45c268294e6919c46c2672552ab6b6f3f7d270a6270dbad1f90e35110288,
  0xe4501b472473be3012051a4fb63592eb4c406eff00b13af2795aff00a30b399909c64a307d0c33a425c4dae3256661af6f27c29cd95a01332a553fe6d8be8337d598b232e60201f44f1f8ba430e8c623ec203b54153001284b8a63f36e669b7683ca7adf8d0a4859db7eaec7c65a46793133dc14a8cd80127ede94a11357524ef381dd3fd7,
  0xbdb339506d7c3140244959ca9be3550701ddfe89226d81da48dfa44ee91429848ea6638332341d8ca5fb53835f7a5ac166ad51748fdc261f09d25618228fa3da0c614c65e24c113450ebae5d819b3e7bb14e8397f6ff4429dedca6e7648845bb2fc9276bfdcb1005da01a5deecbf648c43651bea6dbb1aa4d7775cceeb5eda05cd728c08b6,
  0xc65a32673b065719a47a8b53c960ecdc370021058bad25db57cfb7e64828a4fdc79cdd31566c05b91b70cafef30ac0e60ceda4e5bb07afb84e113578e0ac7e3bdd43eaf7813125aa342eb7e451a1b7e21662b996c6090a7fc14beedbbb0f998367f940d81a3be0503c4280597c4911e7cb854bc7382ff56817d7c4839e8ccc24b5d256fbb3,
  0xa3e10e0bab26772d87475202867cd7e6ef19b27ea4cfd5399c3a77d4b04ff1c7803ec84433bffe0b1270705de12de879d178b3728bedaadeef6198abe32dea70620e38215d81abdab8c8c6e40a81c6658272a06d456911edfc2be007cb9199db551ef70ad8622ed2d7c52981756bb27be3abfceadacd14beac3fdde3e83378c1dd642c5450,
  0xd462d6a7c71a10dd1e00d068f96776cc461123e4010c8c6e0de53fbb4b47d6a3251fd30168c637e03fa7dff52441d11f1896a428a537a040a9c81f8779eedce2dab213c3446785a04fca364b1a25c9df06f9a0354d8a953e7669976c9d2345de41d81b442ab350f06fcb73b2c8381e0a96c15ec8289162d4c47ed887b5c8fb842e98e9ddb6,
  0xce9ec7250df99f0dcb1e1e6f00bb6a06a472f292ab36096a2b183c319d2d773d834abea7dff2960cb1e0e3e9cb449a0c958468ab98918dbb08f707d8215c6a3c41fabc32249e1b676ed8710a94a82b7d836c5043f952957f2071a3f97904259a22dbd9a17f06b0885d19983623caadff323418dad8bf664111c3c365aa79921d51f3819553,
  0xd61e3e77f9c47647a27f7eaba4bb39f6f53c20239add864de983c00a21403523ab39f7f9136cde690295ac804c0781aa55118fe2d398310d4971956afd287d8123178a43c971b4441c6aefae71254ffc41c71a468491ba00ceeb1e96a8ddf7e5a279b8f52f321fd68dadedbb73d68c5289907da45e1e0c3c832f69b97ec34a0023f979fe00,
  0x3fe7e3b05ed59af9b76bf7108d763a15537a5464d3cfa6085934f5c723498ec79c01da630be0a6c4a8eb6eb3497ff34e1309a02df21f05aab6e51f9ff6ce02fc12b12b8c8ea03856f902fb8c0218deece9c10f16165bc7e6c8a01d50ec242a8afc46186c86fb1fee47dd64995807b6593a60121d8828775f7a7e4d883ba08b1270fa492920,
  0x29d9bba921c0214cc0e320da84709f2cddeeb38411cb59c82cc4b0b7ee9158683a289a9deed38b455f2e3489e17a834352753771e29fd2e3a62f1210bd9e67011098268efc896d69fcb8ac11e8d8931ec942a5d87b8ac476e7dacdbd96f7ab50913fd4274134c747d2ab1ec260726aa1a4629ecb7eff2abdfb650721f39e8ef52a3bf0f93d,
  0xc835deeeaaa4a0ab805a58753405fce353b408350734f7cf3563cf251f23c38089a1c3f2f360cba0637a6503e3d17b38d0617f4b6655f0fe8beff8f080af777bd02d676cdcb0ac185e2f8aec9968bb439a97d8a26388868f24ebb2d87ba623cb88f41752c2b73e97c9931baaa1f9c8a76a399ae1c5a15fb2ff9d7153f80536e37c81c71dd2,
  0xd4b5330394f107e10806eea04eabc6696ad54aaf99330d13e999bd50b978618ab64d564a5dd2b35b8c25d8ef0dd15385cedf44956bed5bf10c4acdcaea5e4225d9053a81daa2365f8a7d35d144d7f86b3bd39b78c05c5c4b77655e6bd21a9792f46d96b760610d1aa664fdf3299f0c92f9cd5742dc66b2a12def01e31943b4cd749ec004e7]

/-- fsb/src/pi.bin, bytes 221312-238335 -/
def piRows13 : List Nat := [
  0xeace9de6902b05a0143de656582fdf80cc66b7c558aeed8177c8916b4ba8587e37c03c43b04917b912db2255f8a7df9d6543edd5d5e44fdba316cd7ff88c07581aed3b29c9e5d98d1e21d1e1dd50ca7e77095d721f1e70969f8ddec0fdef3e84cfd4cba35ecfdfd70fe29acc3e520ed6ac699eec2f45201728349a8e5eb7090457a417ba45,
  0x3ecfec2d83f00e9affad0436974ccfb6a2377ba5faa92588d971b02bc0d8f522592975a256a8322bdbae3a3c021a3c23f9abe07715f63415393c83beecacaad602d0569d14383b5245d9407f79e2b6ebe99fa94bb31e3f92c06dd06e780272c2730f893b99440ba9de18aee66ff933b59412663866c267b2125d83c3428dd0043b4d7647fb,
  0x56eca617e27f5cc4f4a42ef56adf92e67637be43a007e7b35250745d894a8cbec96efe75ace7961dfcd697c18e4532a6e0c6450987cf008e166f88d504f649d4a2440933adf89be898fa0c2c5fad2b05b2db44d8a1d778f2baec8dfee8a6b3b6f0b7687b9ffb8f52fc089a5ff75e4fac7583011f2fdc9346ec8592afb510dcdb2333575abb,
  0x127cc287254920f9abf615b3f87d2608ed4dd0a042c0db44d412a9a11f3f3be686223a0322a9ed2b442ecef7f9416c3d6a729e338c38b16ece447d592c389bba3cb2e445d7b03be6effc280b4599cbe35732f21d37f07d3801346951dc80bef2315f2acdf1fe2dd998c60fc66003bda0e72ed024814c67b0c1ae51faa3049ae25f2c6940b8,
  0x5b6b3fc2ad7a4cbbe50f606ef35ed9f2db2157860b76e269077e3e19fad996bf99e5103210d7e17ea9e851fc994e3ae5dda8dc92909d4289eca1d02b090456755e57e9357c37b89ad209e48064d405f3b4079837db5b861bcee1312527f169be57e7eced593cc5a23879706f145ff6db5318707762e7fb0d1c27c62a262ed1d8d0a6aba1f4,
  0x28db3f0329954441d207f59c13a1f4ffcc9c28f082c48180db5d72686e7b1544418c49426c107a8479c0e08a97d0ef9f55e5500c4eb522b797ef079c53616cd1e94c146a76faebf1416084fb6034d4e1e3bd3fb114a509e634b8b7a80ab773324687036e75e869dc159c4af2abf780d0477abc0071ae232faba79abdae0e6279db139a3aba,
  0x2e21a53ea056d85090078c2aa4376c2984379b0450750ce4c95045680e255106c6dbf396e15bf14535b8ec399df4ce4ddce9fbc92950334decb17af2526196a1e9aba072f7c779613a43d41b72b63eba2b95d236f700caed2bbd60c4e84de75e51bd2bb5ec101559ece0893ba93829c2db18cde339cdbc5fcbd2080f8f5ca6d8c8fca3f488,
  0x98f56af72e4926d738c8bd752b71162edac40902ab4767e1ab16d8bb5bcb08cc014985315ba2db2bba2971b2a6d79447a452551648ddf56e49f57281fc0eedae36e01f684770c2fba97eec11b2b35f92c8862fc36a017c06686d9846de025a6cc1ed0d64017faa00cbc276798449ffe0e0ce1084815866e00aab7065ea54114df56b152c15,
  0x3cabf522252ad1ea115f1245bb06db6f031f57faef96637ee1e2c5bf538ba07170b276597a5aabd7088686485510bb5da19035b50ccd1fbea3893b7e6d2222c01b488e12adbc5901a5056d111074b0e9b5ad9aa866a3e47f6004b86159aa51d55b0c5868b3fd02ca75519c99715921d5e5a32aab34906ff873b68984d8de8d937c7027af46,
  0x7cc7735e8380866c06b1a086cf99f174cb288b3a5d8d96c4563c441c564330d4644da471a25f6af2fc3d12c319685165798065432b125f490120e1f1a34920005fa9e1c693f8495980e018fadcfde4cdaa7aaa4ff9e7d4593d0b8f4295f245c6c0deb767a73bb83e2ba28d63c4cf013bda39d0c2752641e0a4ff20430a6d27c9453356aa29,
  0x586167bea4e1a4c826d5d1beaf1b0a76db4e1f0a41331a57a52e5695783ce1849ac2478102b4daee4da13906b36001f55ef0aa1085a3aa1315134234dee145444b79ed06e51adffea4611f8c0d42c918526eab9651e2e687badc2dc0c9d1d4c4e7eda7a066340af3591742b87a3f13bbed92fa0527650a4758e03c25c7b771797ccb6bc42f,
  0x0808b50e3339216f4d0717aa4ef88c60c91380dc0e13b6c3103bb166222067b57340eccda11bb2d07cad0906346937a46d947a89251fff694188ab054cb8dd46d99cf554e43712a783e24ae985d179a07459e10d004d830cf7a980da05501cc24d1c4a709faae55800d4dca7fe653ac0814f60be8577deb058d80d71c25e9b705a892d2d3a,
  0x9e738b76a91a7e73e17387e73aabea41084fea387b4f9339e89d2e099bf8b64cd77323ffe04f69079356c8e4a6ee3a4aa624f5f23eab74c3534cd23644ccaedba0218891560e88d245eb10493645bb3dc5d01ba0a64c33501d1a40bf241f8f0e1788f6a53c1277dca1f1fbeaefc19ad0104115b82faa9850c2aa1a27963c3a60c10f71fc33,
  0x20d37f3051df66ea7dcdd098792ae43d55fcb71665267dffd3764fc9922d1a5d58cb2c03eebf6be8dc16f7130a739bce5df23249e0c7bed2d22e342c1e4b40263c719ff7bab34b8325f33b6e20b6b65fec8a84827996c9be807e1297099ffbb09da31748a586e29944ee09f3328d96174b003f29f64caccc320a47fd17f7c5e1cc18111414,
  0x66db97c34084d636a3edc56d063ebf03c019597c5f43ecc8c08ebd6298a92e20addb4ff59a204c9c27671258948d0c5717f87ab31690d1b8548073a5991b74f6595ba39ceb83832a7e790015fde2ecf4c3abaaf262c194be08e75fbddbb8e72ed988b53845befc644a193a4e55da8b6de2f55fe71eed18d4e97ba4c2bb6efa1a53af82dd64,
  0x686673068e7766ed7dbe9543b8b1ac1bff2ea966150dda5da0b5ac3d5d48941f45c592b39c9baafa73e3f6076faf8c2847c94fc20472c9c544ba1151baf4951d6450156ed4c7716cd9817db9fbc610530b23ae0fa37c53b385a33ac0a8dce6603c03c16f8ba9ec3dabdc37009fc553fc49a9e7a1f4fb9a4dc0de4761ea4689a0a95f9a2b05,
  0xcb54b987d7d0e15ea008f9f023c8fd7461cdab859d5b8f15ef292f80137081933be00ef9bba6fc04b4cb9e75f88efcf16854fc6cfe043af8b7f65dcb1a9d6f335de3cce2a8811109c50059adb3f560cf51e02d264ac48caec8d0b023d58408076557556f8376f95e64061525ed8020cec990692f41224951dd171a9b80f193546ef41cc174,
  0x781b2e0af87416d434956bf4c6f93b3da28c2c55830e9ed83489079fd51c6b12745cc504a11a2b5292358b028f9dc79c7cc9de34728906fe056f766f7d5252647504f3b8e8f3778d203459c7fe5bc88fc545cb77d3a556f8a4e5a2558073ad96acdca43d60c427ae8692a2dd28d1537389a81c217b2315da05f80b1e764c3d2d7ada24fdae,
  0x34d49f22ff273429336e17f14ff631d0c5c1463fa7cec872547e58c110586cec8fc7fee03993e89537fc132dcbd4445e05500e9115db648398de8b3ec73632247f50a1c82cdd667dc9d4c53141845e8c5ba493a516591ed5ed8330450e539b8bc87e124e93bc2d659ef67b1e63dbdc2791d20c0694e71a334046ee76c38d902b42e9a0adfd,
  0xe65d21944c4f38ce1b6cdf0a2262af9a3ca40a9f02adc9a88d0dcfee555104cb05c6dbd2c320cf4d6be6cab757e798ca7be8cbafefce230ba33921c6578071b606e42b7c8e1422f5eee3ec33ff08cbf514193b9e7ba1035de0070d958a062ea42b7fd23444afad4b5f12bd5dbf69368662f019c4a179809a67d1ad769360c72181c2557954,
  0x8486cd5eb0557e8c7bd0027465cc51cf137f5c8ac1b91c062a2295d99f999a62364db192e6c5148f91b1088a92d9b28fa6b360e47d9e9bde3f707d0c5786469826894f2a3f853f4f0d6e786e9248a39f1bc9d13831facbf46a82f84353136d5dae924dd969958de81d8f3955e35763580f88098354833c9e8a405f34f07674dc2748b48725,
  0xcb86d07b0b5ba10b8092ece03ce1430077dc1604eb24c065399bc47cd70d0aa9730319b54592436511b7b1646aa1ff2ab6738636b7fbcc3a1881b031ed3ba3e5793670ed76224be5a4d5ca97976be98d3fd071d112d5252cb8e8afd6676744610359581623a0e09e70ef526d75e2ac8ca34f8f7cd710e2a9fe09fdbfba5b1a145fa6d8512a,
  0xd265b444f37e5e49efd200bfda42c39a94798aa85ed86884894a6f436ad66a208bd9851a042790eff31a08dd8efae48714a9374fc7c23124e15e0474f53772bec805e4321d65d3d231c1a36520bc0732f432b572d037b75304bb69d34e15c11cdd3f9b4c73bcff57079e41893dd5f72b15cb0d1f7dc77caf789db63fbce5dbe9c590757582,
  0x58628ece191105c49079b9f223ed7347a06767ee20296fb3286191312eca908d9437087740f57be7d6d35513c8109c8fac303c9b3b43beab86a7bd91430d4ffcd0c27e046b49bed37ac33f2603ad26371535c4e0a7aa2e2b62184b7d4fdae7fd738f3bfc3035e2ff4ba00a0b160c248fc61f4ddb8962b485ac99d07ec5e5e83b4098973971,
  0x8e787c25b337e594c68b50849d6bffce28b785c7e63173052e9919c6694658655f8d3c5107d82ef32b1c8ea45e4f5036d41f9e24f2550842e011af1fb1ffe109123e0df5dc0a140497f15c33decaca3080f772f624671739a0bd090ca7bb64109a35778c4061f8d5361d31de09f91333af28cb02da7374240a803fce87af6f772ee9b266ca,
  0x2b457c30fa193949e63664453fd669b91a5a6313cd426341cab16fc8353e5cbd3570e2257df74feace1bc52b11f7629b0305166ab5a10c06735c9e7881c37b4a44b5297fc8ae99f580c3e2928387fb9aa96941735bbf7564935b75852d0c3a15f4bbbc4667767b7ed485a9bdd77bc4cba07975cf6da56d047e2cd4c6f9c1f47764bf766921,
  0xf84eff26d668b84e0cc962a4b8fd912364ae32f752556c3c3ac6c2bdbd5d03e41c76b73432f2487169c2a9b33a37c7a3992f3104821030b27235b23451a22d72906b9351a1a844cc20372f4f661d46f0c8d94e7b0526f235d6da49cff5322fe0213b87fbc7f4c4001957b8020511e495b2cdf9fab027368d5679414305f86754efcc2e1aa3,
  0x1f9924fe081784af538423e3124e6469297d0729cc24edc209bc6912fcb96f9a72db9e8ea760e8631925ad4c66af584801e4b41824b7aba37b1538dd5d069038891f5062223d44293f6b1a29ba653a0a91ea049e2700d7e5c7e8873d1af2d3ce2b3cf4ed8a33156db40d8cc06c3e497ead24289320072b75d805fd152b8d9ea659d26351ca,
  0x37c0451c805a531333245b7f36bcf9c48219526fe889c084196367e0bc20db53c470bcc6e95efcf52d9a25f70144dc2bea0afcb75866e5c3f4411b8a7528b49bc630a9e545041f3e5551782f1e6a10b4c5787445309c282d32b391f9d5f8f6b09ba3c1e2b0327191efabba540c7618372b3e13aca5c156ed6980866af656ed0bfa141fda95,
  0x245726db29cafe59953af154c16be66f4506e9202f558e459616e48718cd1c99045e61cf7053cdc217518d10bf326d1e6bcc5ed52d3e7545978caa0795da31ff580f6ed47d072b73af7f1a1abf25a5dc94a27b183c48bf189b8b031c95a6ca33a2e8d70a4e6c97e92f4cfe9dafc9571fc0aaccaac6d98ea56a6c07035f2e57e79da03007d5,
  0x0b1cc892135c538bbd43d3162ab4450ff74855f406bc7040f57e4daf9924bf3bae43907d30f48fb28e24996f118a06cc0dc2d5fd922caf00ee55d1f2a16fdcc33e370ad8a9e7bd3071b9b3f29db1777b09409625495b4fa2624b616001b8720a44fdb4bfe1de2c656edb201c2f6d6671007c176ed94b61ac1fcf8038b65d51261f3241cabc,
  0xc4560092e900e3075a4fe35acd08bf2269ae85aef16267b9829298f644bc601b01cc709a68dc051bb4fd7a6999be556ca0cda73da784448e6b6ce53e3c2477f0c01df6cbd12414e64668360b57b3b1fc49f76bb53313efe704d24fd78fe6ce344298755df31b9ad259842dca0325eab9582049746fc4b5c20c9fa50658c9bd512d8b6a8108,
  0xffcec991741c78a534156d7052ec5fd12ba2786444bb6f5ed37ca6d3c3a263c41e725432120132744544e9130fbb25d6e51168ef02c6e5a7093d15d1f59dc067e34e7f02913147c554c9cca8fbe79fa0ce47a932a2e9caf605e6b2c6d3bd7cea101e2a61d29688447a49002b3b92603f5ac8dbad253e6c2e78bc9724aa45b3f7a03fd7f9f2,
  0x3601e9ec652f8c946c84582280d741387cf3dcb951ee7c52cc1bacf4d03c4aa9dab1a019f2c1cccbec8fa1aadd7ec37d4e05d1d9de8ebcd91fbf8a39ee32be074673caea83957102e953ec5f3344611a4e70c659f877a069c0f19d562cf301226c42aa9815e34892387f3bf6c31335f355f5863cc121eb2696079985f517e7abe2cfb276e9,
  0x2bdec66d548d8cfd7371a7bbd164734b79e19dfd704780bb0f23a0a67d3dc40f83cb35dc4c75498c61acdc5f98f047dc8447c108398a93d7dcbeb81c262f662a1d33bb6750bb2ccf905e3180193e5742f91e97c0edaa25e6bb76a007057742cbe60cb53cf83fe25c19121deed26ad090d5c681928f2b5dd51b12b0fb581c21f1698f266cd5,
  0x39f493d01af18c24eba85ec8abec76af11b60eb8380825aa18a561a7848c60878be56be630ac245de66cfbb384aa2d5a5350f0874ad41cd25864f4a9b431a23d7b7447bc4f4441e8dadf6b4b2c9150f34c6ec79a788c5db64c1669a2a1eeee5337936113a234339aa1a19c853c1afeb67608e5166796e704f2719840ef77fc822b23c12eb2,
  0x973cd5b9cdb8623f975cd12fde2b2c955617ea6a5822a707c3af0a69579b972b16cbda843cd2e17c81b5f5b3c8843d99e46587e71963f76591a1597aab005da60598bddfffe64d8f466b251f70282dc6c51c80980c60b07705d59b306f04ffe74591d26cbae96f97eef99c1528dd3310e454ef0ecea14580807effa1795c0492d4a09ee8ea,
  0x4a5a7de10775205e52426346e67a0d5968f8196442e7c46c3d8d70b721eeacf7fc821ee175238fc3c0c83b1377683b89a19a9ec10be96dd994b10c2346b2241f5ab3610bc0162233f778adc03cd4ceb87e5b411534c5bf0b0a26f8147e83daa1c6c99a4773026d63e09346d84ed7763f7e64feb885066bbfb59e80b39b89c4e8c80ffb7bc5,
  0xd72434e4799af2653626f60782ee04497caaca8aa911226384f9f02fc076dc14c67db7afba9785a435b8fef132513622d9278cad9b36ac40e43335c431d47d5e3610b31bbbbb02b3dc91ab9cef48c5e62c451e0704d09be8866aad2b5e1d41190caf224055e6eed7d95192eb00da0889eff2b1c060a259785d0720d2ce588cd211dff26f5c,
  0x930ad407770635019ce7706fbb2064692eb5908fb2d1ac732bfcec0a20499eb1501d7b6d937cba526f24d98ec6d08de21fdaf7207b58fc72638be914c8563319cf82c57b6b8ca1cf7ae7a0f3e10861910239fcbbe5af75c22e6135c89cdc0eadaf75cd1da61cc8da898db0a2460bdc4fc1a306a82c40b1498cb6c06145a9c07845be9ad0b8,
  0xa053b5519dc69a0721bf2d7935bb1e1bab3ca1005a8d6b164cc76448c15657adc69bc32d4a07d797f8555d361097ad2b1bb329924f19011843336d42e6b89cedd801e5efdcaf8927997e847fd16bca41be09bbe278403c7f1d69b80b488db977e3c4889364d8ada3d0e746c7bdb7bfe1dc7ed44f469e950daee9e0fd6cd556536ca724ea20,
  0xe2d8a8a00d8eb7aa197e854d34c0f873c4a5e7d64e0d65b6ae014bd371eaec666f35813753ef812bd249ab898aff8f469db95c1812135c3fcc3223c04fb2da5a3db775c7d157c65c389b91cd66a00879b41ba111e2bb4d2127c0db21895dddf74ed540a0757fe5d4497fd92228fe740be50acd8e7282c75583f6904ffd2cd57639adc2cc9f,
  0x4b5625a6e48c8471c0deb36139e4ac11d5a06f6b2e497d80e5eeed41f263d7ad9834884ac7520ae7e93ef7f281dd7530ecaf3fc38979a8750eb5b6505894152db592b466a9cad9357690525e4d0c8fae2d86ba71699dc4b430b78bdbca5bac7da70fab46d5bd03ea644650ba78c5fcac88f4ed406632d353678770719d570d1e3101fd2942,
  0x0b641522a15ae7e2e667002951d9e89f4eebfbf0b7f1db7b15bf1f242db2591e7c19369f09015d4dc1b84aeba190651ddc1e421a752a9eb4a4389c2da309c162d0c4c14a15bf940957b851339df384174ab2a5cb2f32279c693a9d8f2160014c05a6825f54c78c4907a292a1231293aaf0c053fb73a8e2ac6aa0810ef1ca0c5a62f338fe61,
  0xcdb90873170b3b98243deb93acb3843f310d0ac3b9c385521d4f390e01323c75830a7acd08b99f3aa0d61cc678d973a9577f1dad6fc8db93280584063f4d5584cb23ab50c374ae9f7164a43d5a34e445586636939815e9e75f05ceae7e425b56755300e183b78e6e755d34a2ba166100d2d25d78b2a72e07cc89aecda18b16a6ebb3a99c9a,
  0x3be16e45d5f6d6a2ca900b12b3cdfc0ae6cdc56f3a344a7def1b65ffd07647f3dad76aa2f97d9a1da3ce2517390939b8b18f0f9e5c3f4ff66e4d12cd0c5b50b43b4397816e2591a900092e4d7e3095d7b24ce1bc9be9339404af88d34cb116a3e2788aae06aa32f2ce22f357ef8881e03081d9fa9c9f2ed6ffc2890e8599040f465bcdafdd,
  0x7b97018b5595f1c04da712399b2783bca3c277e96b8ebc242416602f4f13553e5b26fcad7dd321003fa2f4a5577ce867b27c31adf49e4f5ccf27323adbf0e8c624441c97cd1247f8ad588dda4f5c6c0e25056bde4ad809b18f69dde820502026becb0e31d04c3e0884050b363f00fa13a0bdbd90dca839920430642dbf6bf06c51366076ce,
  0xb79ecc1d5dafadec54dbaf5b98bca48d7235fb8a93a01770d2407eb41c90e2e746493111bb7cbe8600d88a127475e655588d67fa6e630e30f95c55422dfea3b963d99957c126a722a685f7a85b7a35d32f623ae7e3bc09c7175202283a907dc8cb52d728072656fd0e94c61ba48e49d47b769960058066b8ace4ef2d78eca9a327c72009c5,
  0x901db7d1defe0de8be2d018e23887afca2c950bb77d2fd1334814fe878a69f78af401190ffb0b12961d3b4e2f339fc419717ab0cac425162a7a3c11992bfd6e4e6a0739e9d73c6d619d3da38325cafdccf8e44606a87abac5b7c6a72af237e8846a217182c9958f4bc27f8fe3d7973fc0b7acbe005c2bc5d6d9b5454dd7c2736e05edc516f,
  0xe5f70cc4737ff4b3f5d416061547a4d2363261f348eec32769051db1ecb74c49980523580af45b70c7909e2210e848c8865245bbd83e46090b1d77b2ba479f231d6fe1f9ca3118171901913455bb225ffa720863e86b8b53db2e258b3f91fcc1c29e9ec11f5afcaad62aaa89f6d1105ecf0616fa048f952ce788606c09d8c5c9e4a05b2f36,
  0x02220138fbc9bc7a90e03b3faaf53a5d203de25e6551465727597238ba548b0ec05aa30c2c0329cf4d1eb5307dd59f8e524d286f6ca56cebd1047fcf9fa3fc965571ca8f3215ae26eb3c212716cacef8450bd3e881e2035dcb10269f7453e846f341b51b4515a09c493805bc8a6ebe1ea17c8563bb35baea88157a7c96f3c9f7c6ff45ae09,
  0xc224d7db487677ded52ac0507e9a0644d5ded51d32d79a7280ff3443db0e5892227259584e0675062d0134c35f5c121b2dddfe0b55671ee446af9bf3dbe5cce6528f7259d8c28cc3e48a914b54a7f633330534bedbea86d55faebb1ae47dedfd883fd2e99670b66c667b9c8fe678f5de32d7a684971afcbd0b14f6557d65111efbab5c38a1,
  0xa62dd604c39522985bc7f95d1e36d077e4f6b0309086422a5ac69cc6df2b349dec91359d92a26b16455ebedd4ecbae3532cf9d7b3be527dae90b3e6cc89eae1c697616283d72fa0dc6c4c0b5cf1c73544384bd7b1e28c1d9f0bf5abe87edfe0d1ceb384b1dd9be2f596c5f379d6e4aba07a9e47441d0855cce6600a9e0c73c23835c126fe1,
  0x7030ea1b1064c23fd02d81b66b1edf8ee649b9450f2f634f0ea17fa4201e259999b2062db7b330c2c935b6f3089f2ad721e5cd4b2a5fdcb5fbdb74ae258d0e84d7c7cc8247d03c4629e558de9207cf9ab66c6c99b703c1ef22800b179270a6f56f4ba7cf67290fccb0ceea63d5beb3c00c6b25752380e87d1ab0cbbf2a99b73d28e74cd266,
  0xa2e6ad10c519b8f06cda7be030a9d12a9fb9ac5e99f7a91f6da0fc935c745cda03dcf6a5b7270437fba94c83a9e9af75d16d34cb829e04b194bbcdeb8147f390504cfc206a8c43462bd3f8698117fc5e4ea133075ed94a87cff4fb823523b13cf260dceec8c6ff89f14e3332e1ffef3379bbd49d2c217161a82b563f130c7cfc573957f154,
  0x3bff0120485e68ceca4a873c41cefd8e181222b0e58ef91f069ed4f83f4dc278553689e44ecf0cafd6c9aa0ab54264d70d0216ea0b23b2af3dacaa237705588653838e3f6c49821ca134c01196364ad8cc35bb467393f91af666085cf77883820c8e05d12c908705aa1d4b7b4154f521246c7961302dd145d7f6cfd5f7e83aa4d9f3c831f7,
  0x1a8b4d1fee9ab466bdc19f0f77b7f5824e2a25e59952d14b39bbec674f5a2090519bf82bba7aee8e828bedd79de642fca4dd2049912b53c761589260a53140560606f42b26622e71cbd61ffc57ebfd33794a9d1f3e6df5135f4f7ef1667af287d127fd2c898acbc892dd8c2b307af1503e7b7716b04a5f244485782cb06e5c31416be32799,
  0xc58c0aae8608c76fef8022515d977c594bbaa788e20e5f0114c32906430a94141b2dfb3b9dda5c7c035e967a76c59772cf049c77a5ff87b773072374140651efce5cf14bf133956ed9163cfe106c75450c8a188c8f7bcf08002be6874ecbe2dadef7dd1a4ab3a7c723f15584b037d571c6d691a7f38802ccb350511e4dff07ec18403ce180,
  0xab33f2dd48742bc44e41951ad88bbc7124adb163ed2607bf2a53812dee79287d533bad0b2d523e0b5563d9b9b21f2406f40ddb249e3aca3a63869b1ef9c64043d102adaec5d776e054cb5451ce9f63c40ed1487596a787ae9c3a791b0e53417bfa740200972bf3b7de9c96cf664d3f121376ddcb07f896f3fcf59e6c09e958af0a770179c3,
  0x7246ad120b0feaded5270ee09e847c5059e9bea027f53aa52e651050cd63624c3b6d5ba0316a6391d67f8550a80bfd679053dc40d37974cc64d7e0f8094777b71e135d99dd561d77c90a581234833ba7e411d28c5d5f159f81ae1b69d72f648ac9bac669c8b2fb4feac1e2302d880e88ec5d007a05154a0fd633f9b5d0d076097c297531ff,
  0x914bd16ba56304da1a64d6b4913a8b0e6bc58800689123980d799617642e26e182007e51bc952786d17025916969573a3f8e068d96643bdc0f8b250d8a19d8a89402ed592708fc7e0bb3271cc1abc7ef954f5a35c111972c0941224c0d54a1488332884e753de4b74486f513281a9843abff7839d9ff3464b1a89686066477556ef6171a3d,
  0x99f22a6e26bb6a2fc0e1c28e369abb802d1c4df5644a6f2b39351441353433f0407f5bdb59520ec99347e715ea820f0586d77bd4545b7fe54933db6470ac116444ae799945a7c16b0890b956641fb85886d15ef47c8e7649eb5bf9211c16f8352c95d4af6e88687a1ce2ba6ef771b8b27db1b00c3e2722b90f9efe044d7d79b56a4f56f57d,
  0x2646781f655c421fa1df80b33d1cbb389d497f72fb1fbff027088939e647f424378eeaca10882b0c7521da77eb5bfde8dd5749c0f7b992f7adf55b5ba1f5aebabdf4a8c0a997132c7bf7d5471f76a23f6488154786f99a5f8a59f5e5dbd7113c0da385f3bb6b044e861f3d6944d384c39d0851b134be02c6d3a562afed352c96c63eddf8fd,
  0x8d727ddc0690934b08d16e82795e0c4aed965301f7488d1a3020aa96718010f90dfc1eb00516dd1f9de305791befdb7aa55474d66377176ba450e88d5093abdd3e1d9849a29a69bca18aad17c7c4de096612658f64dd1b3bc3cc51b0cc8a4aa146f06e75e442d442f4ae611c6f75a4399fc7264f3a4790930865c1ed552a550c7199f5b804,
  0x5512025fe9b33a78ff5b32ce92bce6c9638a167e8dbf7c59defbeaa0164e9f4d735b8dba5a90909a2fe5c5f6084d7b25ec42fb9a2ec9afe1b20dff7557a24ff09e1036101959082783a46773c3bf3cd037b1c50882a4fafe74bd364d4521457d9b3cf05f9f9f4670337233180155164023ea1d4dff187628d41b9bab161867bbf295f3d972,
  0xab791a68331ffe764195a7711d3f25fc870ef39dd7df45c0cf0aab88f2bcf6dea330e68417e85c8ecc0818a4f36d43d13c22c87df84683b52bf85bb9e3a22f39c137f2f6f197db5d036b839f2a8a3da82c29a1638091ab5c888e8d9e3189f51ba462dd4b25332a425d88b741b14b40ffbdeeeecb1b3fb79e4e10d6dc9b9dc370663d40a368,
  0x2e7774f1c5d441d38dafadc94947fcbafa0b0d52c7de4dd2e51fc806e3bc7f209bd5f7b28e3af8e8d1858a19ed24dd13f1e5d21b40f485ed86219cb6fe3c9efb9444c443192d77fea849be4055ade59f0467ff45cd35e5c62861ed407902840d3470b1929c689026780c1997bd0b91246f1761e5636061097bec98bbad7bbcaa92a788d32d,
  0x235d793140509533b95c480a7737633a09ed985e8916ace15f1e687e7dcebf6ad741b5117bfe6fecf1dc8b4c0cd1f0ea9f55b1fc3afa6b581626db9ef194cea92fed8f455fad5a2b86e08fdc96f9dcb84c1bdbd9a3e4f0945f350e89d523c5b42f8bfdba61f14938c10d486f935bf35edf2194d45174c70b557ba1c9e33d0c601da67f3ce7,
  0x41fbe940142c9cf4222ae65769ef3c594b8e6152614322e54542beaf97c96d1b41064e30200c9a6ef2464be87ffca113e86756198d0415dffbfc6ad0e523c3c64e0231709316482382ba73c36f186614a1689a54ebbd8734a736f73447ac6a2941066b282046d322dc6a91aaa309d013dc490a57a919a3571b8ff824e043bf5394f380ec23,
  0xd2ccbc7ffb80441940accd3161aeab7ee2bba127baf05b29e858e314d31773b111f413c4f5e9d9eab97b08f79bfce9a38dced8d45497a1747d3de669a13ccd8ccc419809f7f2c0600921448e1aab0b1230eef5bc9e66f23811a8832e82c931b2459bcf376090af2c4a44e216b1eaf05c1b675ba2789adbb05a4b5adae7eb822ec70d07ecef,
  0x1961579bf150f96fec9ce2cc009967f273b7eb785726efa0bb4dc7ec1c3ad709b479041d97ee2e0f944fec860bb24f78a92e51b49a742f00728bd32527a4f5ca68cc1c1e284e7938d1e9a4bd7acd40601ba4b83c9bb52d48c5be1e73bff43c6eb33d0631e126c95e2451e2e3af240425af1ec574778bb2071610e2f864d59b1532163cb7e3,
  0x81f6d4f30f7beead2196790ea48aa95b3fda6f80d73944755af4ac26edebd04e7a9285ad8512c9b63b63e89d0dc480208d4ce31a870935b24948c2f254dee9aad131bbffe5721181e8ecf5f4e9fa9e9a9ea9754b65f60d4f3935b64d6365cbaa5a4ac78055e7316c5121f9948855da8f933785a763cfdbde080a8e0bd2cfeb6fa73bc519ec,
  0xfedc4457e0dfae2cce430ed0eabcac8a64a3c663dc82645a94797f6990394281d934b890bb76b092de00141154e7c6de2429f3488dc73d56321d5bdb2aff0e606392acbe87efc70fa1c3e854d347cc11e5d6afe147709dfe1708114a11dfaae11529f41d64ff0538788ae7285004495f5ec1fe98aed36252a783c70972762d77c4167a6c06,
  0x426de1285dc7f0df11ce844d51b7135ea4bdd70ee171f55a1e1ef14f697fbfcafc9bb4f44ab265a7e91f72239f6ab239f620f350d25a345d15c0fc8e006ed88c0dab8d7856e89406fd68096c79812025dbba99c47ce2e7d667b477b640bbfa186b29045d2085eac7ab1ce45e90fa503cf7ba8d4039306ef7b23598916171f1ef956eec24b0,
  0x6f7784f91d6a1afcf0bb2daf26366eb7f4cc54bcb9eb9aa939f8186b8646aa7d443d61c5b10aff02cf3f1881295336b3b916d594e030710d1639d0ecb47c121d90ba3f17a564996bc75f00ee5234aa91cf761df787a1f13211979c138b0baaa68c1ad182db8a0c76394169ef7de2380c59a79908654662079cea4dc080274b642a81445502,
  0x171de1470d94ea848a9043ca6d6bd1b5c30c31be92c23a98a86371abb461decf6dbff44ff07edb47af8f642d803ae13a4b0619d9761ffffe2acfdbe6bf41a650d8fd8f066153e7898577de2beaab561f3509a1293a805e4237c53d977fb763934a3be1d82ae43ed7dcc3b3acc1862094694930fe4681caf62e8ca4ab93ebee09055891fb26,
  0x086bd19ba2984cfc7456cc70af5bf1425f0e70509918da7b2f0936d25830d2bf7f5dd8434d6e09dcfac7583c7d320631d10595ed4115b197db9e4c9a26be03d99514fad35e404e3327a8bcb46365461b0ae2f74e807ffa401c1c45b1abd1718bbc9a57363751e022aefa69cd8fd69421aced4cd06075d1732148fd1876a1fdd5ebcfe52b38,
  0xb798cde2e235bfb50213cea435de94a92ee84f34c0a332c7c30cfce3aa939f031d28116df005294501b29c2d715224cd5d1ac47012c5df9e4971cb23befd6961b1483fbc52f26aa348b0ba7654dfabfd821e798d8b8b471167ff0780001ceda08d003ffd74d6c06259d1b7b99ba7ee81518b0c21148e96181c890bf4e2908f9073b87c82e0,
  0xd77bfd3cffac9a6d7cd5f4cfaf8836991192404b1dbb0634acd4a7a3f4e32093b80ec6bcbbe3cd11213e67e404082583fb4a2f8cdcf1e1fc50ee80a2abd9f8d8ab2a09f73f6d6187a5ce2897e89870201c3f6d13112f62764c9a3b63f8bff29ef6520ec0b0b9f690d99a2f6b4b624d67cbd97a892443453d575a33eba270705a37d63ec382,
  0x36060b1f393daa4480f2f55d67d528a61463daf3b5808a6753181457d109b46250ca1012d15dca07d003ddbb3a88e1306fde841037f73d397f34074ee5a3b8d099e4bd950382362518e4387b70a645c39327a24dc6a12eddb8c9d44dd243c703e2f177d5affaae94af28474cc5a935dfeba7eb42c67a30241f7027e3ba03c3e4291da69b1c,
  0x6823eb655f15b3e5024337250ae93afcdd5a8e0bc01a45bace9d390d0d803c3763074e786ac3904c2d79a30173f00ad53878795007bdcbc44eef54dde5e57f7c919aad8731dfd735810fb49f0fad23c7379389cd8e5ea958e7c6a730c09d34127b063aba49950f9a2a8da3de89633d3e4f9ca8cac6b32a4a96e9f0251b654c53ceec0e4f69,
  0xe1e0cd875d06cf5d3f3dc3add38da7fa9d4b7f80219c1d5b99d2bb4aa4f76b9b63796d51147763f08bf2ff290a7dc727fc9dcfbc14ef7bb6fd1fefb450fc6f8671e73407d994c5200ae5b0befc59c2f99f4eb36f9214a8efc31b9ef8243ae781191506edde56e25602b5d4a52cfa006952dba729e6a1abbdd3ee9f18fa417788c921e3a281,
  0xba63a873eca7f885f8072312a7186e17f6478e5c9ca69b3d1e457ab5890fb5d4d9bdbb6c90a1bdfb2aac0dc48fa09804db049a2e4bdc7a22503d8ad23fe28cc571b644c96c9f1205cce937d268d885dddecb301abb667b34363a0c0e61fe310e5fc7e4139ef718ad966675dfd62735c06d7924490be60a73cf00a27faa959bf944dff3f6f6,
  0xacb3d06d00f2eb5ad45d2e86b5b7049f0186cccf80ce4294a7cd46e6c3939967462372420d7ce375bae43dafb89d6f3f69bce383bc388d435d0c138df31b1d6dcbe46fe0270a328953c9fbeaa7cc54680dc861eb4ad0a1665daebad370e20a7fd1a71fa8ee8af5578f141b6942ae5653100e4ffa92e908ca9289c38c7b97ffe4e905322acd,
  0x3b214d46c74429c6cbd3e45106e730d8ed1bbc3837cdc7f055d21b41362d48c814ad26f9265d338aab5f95c4783fae3e3284937288f26aeba1070718d82d29d7dba3391c21ad2c2e2db50344a6abc5f3ab4db69bcf6c8d586aa328d01d8665457892839e9df392aac77fef24a03525fc403cc4fc06e11cc4e9204b3365e7d08a68b52496ee,
  0x5b8943203e40275794c04a5fea5a6c428d27b7a6912ee2632a4e78c6229e12909cb4e8473af32e28f2991cf1f247552b9994536035d8e1f6bbb45d903c9055e5d243627a895756249ae8673956fb69e56ac2630374d61941b54cd7b7a7323525f408b26cc762aaf34e8e28966e599d736f4d7f24945ec4c1a8360bdd22a3cae7855b1092a4,
  0xbc1bf10a96c28e4b5a8eb2a66ebe48520f0589d3c31463f4a56b1004398506d95557a29038fc2b6f7d0bc81d3622bdd5a9fe21ca5a97408095e28db6a0f19a94b81f68509fe16947cca96696f9fdba203a00927647bcc485f5145828c17797f68a6ae3f63c78e0a50d1b9274ff8bd6518e5abb0de65381b9dc95d4c29fd94e9deaab44e1ff,
  0x061eef15d3512051c48954d6c1ce37d66c38b3fc6550467c9bd45dab25c0bbb5dfaf0ae0c0ee56d6ee7aadf1f200e695c9fb5e19578f306bf920a1fe837027918123b6f7ea549bc3d0456fc347dda4f9be00337d18eefb19a235c2733b66f1528e518925b31f4372494556572e5c9d3a0a4aaef7ba066729d1a7de29c3e5bac989e3c1f641,
  0x0e8d962cf5e67ecd258f1c633823f068e07f2f41de339fb10449b04845ec60fce5b2580a51ce600dcd6150001a72e3b543290965fb6fb01e210b2b05d4707f774b14860a3d05e81baa64521ceb65b68f12080a06d70968bf3386c3dab9f41d24ba5a455429c66a5c7629510b6f2f11fc92787ac47b3811bd5474acdb38eba8c1f0f21311ff,
  0x0513ec743feb721e05e840153c6e457102c2f324aac3eda1841caca2b22dbc9d85ccb94d4af40d33679428f58077e848a78cea22c85a6eec000c391a57c175ab432e9bcb52eeba88164c478202eaa014b6769d507fa9f6039bc84b423aab2c026f7ed79cd9d2929cde16ee5095f5fe78f58bb88b9b7e714dfcbcbb4b1304b28fc83893d71e,
  0x42e940886e2a9651bd1505edd8474778d70915eed3ebdd72f05baec36851b596344d077f5fb7e68ce6470f494c6795ee4a909e7907d956a12cc967a93a3c1982a1614d08d30fc88fe67bd309de34b3edac311b82eacba134353656a811d04fff72dc2a44238501cfdb86a6856ee8b581fc292e526a0ead2341cc807382744c424278cc06ab,
  0x587baceaf1366aac00c21e45aafbdb1bf1ad259329035054d90c248612cba01d7d8feef9d300de49f3efff8ffd999063d7acbd337af79cff571232547c5ecff22453886d5820864d0d5b22c4ed2e8d045071889e63dc0037cc786e227cdfb842f2e8d41bd3915216210ca2699e26c68f0136452b3ec63ed1fe10d7652d32a52911293d0c48,
  0xc1a2b27c1d8f6474eed27082163e71a2da49c21bc5cb058792242d58a79f0a765033754fbcfcfdc91251630f3ce09191f4727ec0d7b22409b94aa863cc43cf88c90ee06f85ad6b99ddebbaddf683ce8193da26157706ee29807fa5ec018f6f5bfeb2288c88d97efa1e17974f55d45d2c7b7776337caf26874e9dd274edc945a8e950a5c5be,
  0xef0eb82d6f10ff2d347d76323467c214af5fd072ce62b8b60687e11c0593fccb1710f4f26d43f2363b7c76dcd8d894ed25ee8ee5bda3c887070d5b211137e3deb8192e0c62820d638bc8c2953d590d873e2a75df5328972deb85d823160e22de7a4b1bbdeb658a2ac6718d115ca6dfd322ce21fcb6a0f3151be20836b47e4a7de6523f3a4f,
  0x6b9aa714ab748fb6513b59a94c22443b084082a1cd667fce66f540f36c810946537433580b4fb40d8e3e386fa579ea73332134a2be58c8f5546a711580b7a19f54311abf006ffaf5c12b5c16f413c9138485b2e7dedf0cfbd0f89e8ae8e3930fa212d98e92d17e15b60f2f84b04877dfb99868bab8e698ac43f64607a9cd3c3db452e99e42,
  0x2915357ceefc35671a5bd6cdab34e69c377f98c0f9bfda0b8fe1bc5468330fec8ac37e70b48acd86447608f7ff0cb7197a21c0930b016b54574078237b1663c96ec723d1f5a73544400284499704c0c87f3ed6f2f7282b2b4677456d2dbe50a4dfdaad856b80c592ee83e48a0f581fa767bf377d2a444d3c93f09ef91e7fa028ea8e3ccddb,
  0xfc92c8dc4410b35bc17d2e7737667404473f4abf3f63280ab7a4c4991ce4fa05025bef62bf6c34a91394d09878e18db6ff68d8d23fcbbb79ed00206e36c8e4aba05b5006ee55b8548aed392aef2b716ee059157ef48ecc7a1a00ce2fad27602690cbfcd9e8a884469f0b8ef15d5bbbd1e759641340f7a6b1f8fafcb1dcc5d0165e1dce1ce5,
  0xd1949793f159d2fcad663fab6bc86cf2c488c7201cf57d00fc57284fb8eb8a214a26ca718e8ed8f7c1b560addd682d6ad28c1845b2a1244f0152960b07d2620af79a9476458885e9b08acf4834b911cd9c3ebe63ba8ab28dd9070db09b9f5f1b7898a23c8a468b56f4220bfb0e00878c26e5946b12b180bb4220c72697720dae274243957b,
  0x0f3261e782b8e9fda85c03da8583334be46f0112f715167f87ef5ace694cc293625c4c8020f343f419f925cec4050e16c3084de47a8dc43bad732db1b33f1351bdaf91c2af6bd646ca35f51b0dad7eae0c241399a7afc10e2888eb66c6a5378fd2975a062fa6929e278f413f153d3702d179e1d3e112181864f6b95e93dc197983caa6dd35,
  0xee73a364a5efb899e9f8d5d9f19dfb3193ed8991a56a1b51a9dfe894271f79fd46a1cb0ab65210e1d979d17cdaad16b37d71805cdfcfbd2c429d5830c2c3570403abbb2da0df18db727024e45b741a3e16e8cb84728e2a1d63e6628a174ef476b54ccd7e725bb488e4f8642313a2afd8e7401caf849bd6c3eedd6ba6f28ef33379de7d95f2,
  0xd04dd0fa05db5869539c9ebfcfa602a68ee2d8375e792318aec08b6cfade4ba896160c87dad7802aca76a00d1d7a77a4201ab61a942586dbc1580bb8975586b8dccf8f391e5ef62813a93e4ba223efc35ead5d36ed91c646933a045665c727bd9eb8f1cf1a801fdd21ad0bbfeb60da8d540f8a230813f0f58c2543d726219846a5853d1063,
  0x9a293f9a45155bbe8e228006d3eb95331c2aecd045528dbc4e68d1b285e360a9768417b7e4f0ecc9d75afa4d0148481fd99789204b094e84c1db03de0c10788ecec305f74979e463bc87296bf57af07c1b29e21a826d87322d186b1a81f5bc09bea714719bc7e95650f71a029ba948445e30e1700269f7ad6b9d6a87c7f6919a3c778e0ef3,
  0x07374927e2bc795a4e79927a2c498e725bcd122d4d8b3beef8337a6b158e14b5215e7b96c4cf2e8a33fb1d7bf4ab1069058b9785b8f51904cd66c0a53f7d77476a4959aa30d78baade383ac74179fdaa8adee9380d57e24da23779411bef8f9b5826e41b75680690d1d8116115b19694d90dc4b55a5b5d8fba44e22c013c34ea766361f3f2,
  0xa977825d1c7bd03882bc48eb419ee72980fd07bf56ec16f3136f350428f32deceb7915ef485af33197df73bdd9aa4b11b2c6db9a7e011dcff875d2aa15111dc7f10c90dd81ab06a5f447d75766d10bb2b366dced2bb50ab5c39b5945210dd7a129a99339ae26d26d1eb2608044e1f9e8eda5a61e843624f97fcaca6cf68d6ff73e70e6056f,
  0x3efd930cd7c3a3fdedcdc85165f218ec305ab1ce8971b2612b33fc543152ad25eeba45543e9745205c6b9862d03f3e74bac8dfc4b1a3e873fa26c2d8206f24629dceaddf0635900787c2e13ae8cc860fd2510d6c025eca8348eee6a69c1695801e050340bbcceb84b50ed88504552152f7ecc41ba3d2c14814b776b9aa57ce9a97573af302,
  0xd7eb87176587f54ddef0cd85ca0f4d13681e6d20bde23fb148f4fa5067fbcc0f551d510550d28754800f1568084a384f7e5aeed65b368536ca53ec936bf0a599c734283c255ca38ba91cfa2677d58e163d7fdb6ddbb63963ecc999b370386975e3fff014754e207303cdf959cf937cf793f039de21e12691c86f4c43428d1acfdf907e1daf,
  0x06b705204061557bc33b984c47b4f8b4ae69998dea3b994ed21728d8b127527dcf1888d006f33642ea99b3db8aab468394b4dc7852be204df46fe4b109a649a18eddff37e25f8eaba28d7456e944a397a0df0d3732dd602b09abfb1b2a9a4b2ac6fcc38e2b89bab5b8f80371ed7fc58d08f5010afcc427218b8b9d0b694494ad17b5270a66,
  0x42b3b54c01fc2e7af33a712945f5201d029a1072e3f3f3bc615e94e6bc43df9c54e4148be5b8501e9819a6d9c1602dab076713e5238116624bb999f98071cd7c8b04f2b5d276b93869542635c3aa326b3d92f884215d9840a5f966c53dcaf24e50fd395cea8ce00d1a30bf6d1fbeed021ac728a32d15e240bec7ac366b30a4a6aa11ca4a9d,
  0x261a9b9d7348c2bb5c225b532717fa277582eb0bd7f51159cffb489381444d9fab68908f3014c29462e2d8fb805e081d5db69c2d8141cda391ec704533472313e44ebef58322a4dad7724f1d2c484e3289b5a4a62a394798b5832f834977969798bb7833d13eb5c4e7cf1a081d6477743354aa38b8061f7cc98b381d963cd02a6bcd52a861,
  0xc2989c9dac4fad299ef9a91ab3dab96c80cbd64571d9e8a97977601356f4c6e3767cdadc6cfc1ae7e35f5178611cace699dca0f2de814fe2e07927decb2b38cca0a410d913473b40e9828f78112d471ff680c8f8d20ebe7cd1e312c5b73ba06f5a264ef53ad6b788f8a82a18884c1aea2389e4f5658810e184a3ce2bdb79e6857a9e08e4fd,
  0xa7c11d3f8b15a24abe1dd6a12ee28141c57481f9d207a167a8b4cb28db1a58d119d62a92d93c1a113a8658b437358553891882f109b9769e2f34cab2a6dfeda64d656a3b8de8d3927e2c4b4f5c5be3b709e5338f2ff8adf717c781a7e719625464fecb7557abbc9cb489c8a6850ccdfc928fa8455f3d7d8d42495eb27a23669d5bb26b138f,
  0xd60b957d8fef2e8bc64fa07ced55bd6c6ab14b8979dc559b8d589d292590951b81e9379a08a945d6aa6645f8089b548c6b841b50aab6c4d848af2b6d718da746517b175e2b73d1209d83949c29da64ae8210a16a7e12064dc302e8065dbaa35813bb092ef33e6ef5fb08c5c1a91bda5709e92607635303cb4bbceb0f95698b67aa0cd47dc3,
  0x0ef327694d729a616e260b2ed76bf4428f92d5793eec87d045ecd56dad14756a34504e7a4631bd81de3f97bedb7d920af9acac69cfc3bea3fb267e7ef6c92c24f7beaaff42031173d16884e09ae9bf969a4b54384927946b863cd03bfd1cf57a693e924d1f97bcfc75516aa5e2df5a9d594a75fa5a46aaed4639341d14e666db4914370e6b,
  0x58c12de64a4695a3e2ce0b94673f9ef2b9ff1ee467a41802039ddd95877429e96f0091493bd66febd65a4ab6f21601f13356b5ee25544329eda2530ba362e4ad9e712a3931c2a7aee02866015af4974c08d6af7902543cb53dd9f1a3f209d53625cc4d386b33d2906b29069d3fbfe9aa93ca7a45d2f305c355d3bb0ccfcaca9823a15914fc,
  0xfb99e0ca62ddec9d83ddec7afa95799e3aea41995fb9d7cfcf087232016501bdcdeda0c650f267eec62b27c63dc3ff962ad4d83c4509190b05c3b7d85d699c9090cabb09ecca1fcf5db16deb6e6f459238e422b41f682ee6802dd5b1227aa1435f1194a8e6b3c0bfcaf452e684f88d8ccc8baa84df9bd29adc42c5b63081c0f7259321e558,
  0x2caedbef82108b7ab8191ad9227e55d4c2b38abdee9123a809463113bafa387aed553bfdca01f9614e712ce76c7d7ec6aeb4606614321b372e89177f156359479bee98ea20d92bfd93e90fa017c5952c05e93d8a55ef6cc29cab5022ee87cffc934200eccda0e8ded8e332898cc33ce501e1240c956b397920a5b8ac60fdc18bdeeed0805b,
  0xb744fb41022da0b0a162fcd55f33240eedcb5942d89c105c1d469102e8e4314ae73e8746462cb6bf67641bd02484da27b5ecea1bbf1dacdd4d7d96df252c08b83a506f694523be29a0461f6aed40b17412f0e624e96dce072fd9dc9f34d7dcc6a795583a26b2857c654476a0d8e8f384d6af563d85e6f24faa5be11533446da1d2592b8f36,
  0x41781a88fe4f86d9bae19ba9d66851079bf37025997bf90cc77e8b12011cafd421d85aa6f9b18bfd9001108b37445a1b5544028d49ce93678f670b9792c2d2fabea047e9e6a13ae55957b1bac5fc475e820e0b3881c83e2f0062e38f19d9de0c020540fdb744f74ef50988563af6bf52e3387c901c99c9406c928d74c3eef7d8268f44c778,
  0x80d9378b33a2f485edecb20fa88a0ab3e7510c19ea6dcc849b79cc106bfcbac6428b7b8073dd591aa9823696fa1a6ad6c707120604a45e28ccca0185eb5e522620750a448364359076d9bca330a077ded877c5c2775d24a774a811dcd2fb2ff56a597541c10429721d917d859a6c93e4ccbae2bdc9316896165d5f430fca7dd1356b470d7a,
  0xed8b9c4e178233976e62ddb2f0d8de77e5d73d58de4491a534d05d6516ba1de246eb81d8b1fb645724a849068cd9f7cf7345b39e88f311a78b94fbf212891ba76e908a8474cc3e8db03c0fbb3ec025776a812bbbb6609d9712ab87bf118dd41cb914480197d370a820589182cd399712877d5d43c4882457e7a00cdfeb1a066ec766f4fd02,
  0x30e75157bfd239d12b88a6ffe72a9d41b3071fd9d2aa98b6c1167b5fd443cafd5661836ab3ee31fee38a8194d5404072838c740559478d8a809c4b4088e5d6f9fe267c1364d0f12096e9a0b79237659eab8fc22b0a923ca5df24809e7630d2fe5eda2f2cb4048de672214bad163ebb23fece0f3074b7167d84fc362692971dc731b578f649,
  0xc80e2ce9a7107f0426df84398999d6f7756e3f7a6b663a063626c2f273f1ee00ce5370cc9ffdaeeb18af7793563705d62098e3b6c2c85b3f0695b7cb275535845b628c72ee2edd2d54e1740d2cb2cd8c762a89b572995d3c75b0a4c333fe11c811d7ba531affee18310f1e7b10b43e50c5464ffddbf1544422332e3fd79308a964c182f592,
  0xffccb8c08debc8698f79017e5044e4c60f4c80b22c66ff4155432c91c23ae42c692ed12cf7c148ddb02871d8e79ceb9d22dd307cad42376ce8f4a5b011cb33e0e17af8df4a82eb48b4eedf99ffcfe2c3e2454fbbb6c50005346a82bcacf251db958562bec85ff6351f063236f7e9bd0984eca7fe72ae1276fd0ad00b57407c171cbc70fcb0,
  0xdec0cef34fb0f157576a676315cdc5c54b5f1c06c64f213022cdadf4b014d2e8b209df57f9ab440fd3f48a9faceae12c0c52a8f426ef9997221a4f6ad7ceba0b320be5f0c5a7ceb3d5c2e5246238465608ae6d279d4f79b63570fc6d356cd1cee0dd9f3f98898a382c0dcc5e021f0595aaaca6b374deaa60ad5d410224c3d038531a834042,
  0xf867da0fd0fd83b659f6ce10dc7c3e182634bf6ab92530b88016fe0783337ad8336c722d97da6e39d65f0114ec71cc4afb12c7651f981478cc359e710439918ae1cfa613f0fce797b4db2263be684c42a390cda06d25da6d63b591c64b77a7832c197a70206c2fae634358c561e0cc24a7572bdbb0721f0aef4ba0ad025298f80e4ac1d295,
  0xe11f87e1bb5fc801f4c803a1148b7c03c29a4dedf339c065fee7e46d041ff165e0a733576904cc223bf2b275d1ad7994b96d85a5c20881c5afa269b7957c6a159ab9006790975dd2e8c8ce4168aa4c901d2cfc1c048885cb6867887c94ea5c2c736c9eb9625ba164d40a9194f4401389bae96b1f1fcc2ae12c9a9b489e97c65c3e3345a9e7,
  0xba581d3a9ef0fd0426b69666fc17d242cef01d4509409a1901dbdb7a8fb4745b1c0e0e9f443d39ea36230e082f4a1f798e929d263938b74149eb0f4bd9b7bffea8fc041e980972d616b7601634869e976fcb841fbad03bda3dfe71f9c224962e64eafdef3a27d0b76bcf1957beced18d41cd18568e238e1a5220db979c9bcb31dfcc431b07,
  0xb601d3283fd45d67a5c7cfbade1069c113aeeed93a46d795418396db39a8537c9583d344b60a54b42f4fa17ae9205536b34efb5c457729cd9e5c85568493a19d941cf554acb4e2d23186d68487bb446160256753c266b5e67b646784f889eca7e2c824483762f5553b04b7fd2a5d95cdeba96180747e2cef19737281835656ab22aa14c8cd]

/-- fsb/src/pi.bin, bytes 238336-255359 -/
def piRows14 : List Nat := [
  0x94dd274a96d35c4335fd12610b4f11b332856fa914df58dd79de39e4f0bb451fc8df1bb2d1d17cb538977b174ca3a5c70c411ebb1e4e342060f3cd6ae4ae1d59026cdc24427aa29bdc5d5aaaf7204de9f1dc4dc61b69dbc9cf4f34cd0d3f2018b20617e30a654c28bdc870af14cb24fb695e637103daff42dbd1bb6cfddc380de169090594,
  0x7fb0218e16c49ce066d5e8633e048a2e83bc1c49aa762b4929245af5fd35ad29487a0851f194c61674106ffb48a5b445edae82d936a0de3c75619969f4041bc9d353c3ff557cad92f51e0da10dbbc0ab49118fb095f570a7b79de5fe92c626e22ddc2e5f97475262928539a116454c340ae3f3351dcfc3291bebd57240d47b147af9a5653f,
  0xdb51c59890a32f1d31dadf669d9c778843456111111a75e070b5ae7fc64cf0913e3ff5d43435d67bb57de93393ed456164df0765d4f16a2bffad4c1a5419274110a32686ef7338743857ada1892222134c3dc4f6309262e4d84734c40494b5b15cdfb1bc5f93fbb3cb4c3161ecfaf86c95b456bdf298d0d4bfe87f778d3f84c19386d7abb6,
  0x85d0763ab4b2836eab299751992223e2552a4f8a18d60c74c3cd4ad8e9fa4e81cefe523d52b0677f412e55f0d14ce9057b31c9248ab8600c18ebba251957f5e1beab50b5e4b1c78daa85dc34e99b035a1768683903e890506bd50af43f02fe3ea035f5e7df54ef5444d6b82689ff937f7b18b32007d0d369053d3a4476fac4632ae5963ad8,
  0x992b049d608ca469e89d08e6191983a01700612f033babc5e5c68b9c1e1c37dbf685fb0af9b896cc8f1941b9059eef2c4605f2e8883e727e87d693a35f3e3529ec7847e3bbffa05d1b649a9610762518fd52894a0bccbab844595e746dd6e1e31f98e5a0eca17d8b4f911bd33a3bda12d9b17e70692eaffaf53d61703a42cff87b6d2c7569,
  0x373f53cc6b0bbfbca21f8fce0a704081af22bb0e8c34909f276d597e85bea065aa3378d4dab9ae4215732a5361359f624e7485e40318a5663b42667615733fd452aad9cc2b08cc3c968b77c4a5e85b6cb2fd8f6b9d75451473f8f52a2da43ec3f2d381bba85bd45eea5bd355399a32e8cacd5e8f0660a350803e953e73a1c84b158f990195,
  0x68f9e0d24c09941412c0351e94a35a93a66fb49fe21d5ed78f278d750599f418f0aa38b2ef149c8f679a6bc72c67ba398a87afed3b8ce286c402c1d50c408df5325e3b18f3a1918fa5a277dedc034126cb37fa113ef599483e9d1fd3aec3ec0fbb3e7052e1dd050faa5e9deef6a087233b65bfd1472a6fba3d41275efb5cd39e786e83a511,
  0xde0040f6e789299ea7959e78f87a07f7b41441c29d7523f8deba502ad794ed7d2e725ca953556b01ca1bbb896a92a903473ea65a60810ad4798f228145faba4b119fec489cbb4989eb719b350ff3e3f01be0287a168a52d97eaf81cbeb00136a2e91caedbac09755b87e3588bb85ab06a44408e06a9e340fba794517fd2dbbb3b0f6d4e388,
  0x57124969e3f3bbe8535dc158a1c44489e564e0f8766f8874cb7322bccde04ee5fc7673648522e07f2d32e18efc51b293c27b6145408dbb9bc5724ce2f731751ec936dedcb8799203796db89f4e64687fa5fb172868b7e740669657d3ee9b859725de3d84b64283ade8d7051484a6fae736f772afe06e751df3f12bbe262efff4bf1fc7dbd2,
  0x55b34332e30ebc37aa32b24b5b981359fa075b5f2047e18e5cf53afd69f67244b0b50e513a75b5166713d4a5d6cfa136275e9f8edb607e935c69b3c040b7879757902363c36edc9dfef3a4c94b706f81dd342386ef670c83e075987e15c23f2316928fea58f817a430429e4cf4448d391ea6918a15b2fdb177a78c527f2d845d9c6283bfd0,
  0x4a04719dcc8c6c655c2989c7d7cad1c0390149454e429ad63af2ecffaf678b93fcef4e786aa8c3591e175fe6db3e2abc0941f81d2d68b7d054c2bc7e17458838b300b77a934663bf4b71eba563181d1a9c9683037d2f44e2c9d4183ebb03c5e0b96d2ec8eb6083e17c32df82ecaa2a54a37860bf01f1e3b74af446059a3705bab88fa80fc6,
  0x1a6d9ee47d49dabfeded81ac00ef2558325a8ab183e5c7da338bf59bcd37634c7bb4606aa755944c5a3af062059d2a7226e99b6ca4726fafbed60b8b6f9d171676c636ce6580b8071a7f18bc73d639367f48f3fdf8dc1f0ea33e9562e84d22bffd12ac320ff9891d7ff0239a2b7ed37732bc5fa2c5735dd4d508213e9e2d9fd34846574a36,
  0xa9dd23a4c7148c65916f332b3ccc562ae3d150e4ea0095565ce1c4f4fba9647743424f582f9da5040ab1a7cd72456a7cc804bc237d7d625c851c634788bce5406eb68b36cc05e1a8c159f2202222a7ae100acf3fd8db560ceeb5d0ebce79bf10f81a59caf5ba2dd7a30c582bead29f973563cd0931c910cbab01716b44258a96832c7eeeae,
  0xd00fe508e3a131492349e6e1a61281f952ba3788a8f171e35c1392c4dac4d10f90538b873a1c3c77359e83b6c5b9474c151eb0fec004260bdaf6953271d77cfaf474dd31b1cc5887d446c681d5721c4370f8749d43f465a3c68e14b9695932a1f7e6e8d70fcbc2c76ead2822663bae952f028e429b035454868166c98100df4066c2d232be,
  0x61e991ae031a14e39bf0d93656951a865a3f56cc6a3da8caeed212679f40e3c0e4783e325092d8a48c7f620de027f753cb8c111c00299a10a31e13fe0d0095daa8fee332ed8a2669cc58e707e9a928ab556860500420670750eacd55f1ecee3423802917ceb7158a8c64f0eb0f6e805dae92081dbc89814a6a9e7576db327fbf130897c922,
  0x71d5939016830bf699582a70d8354e6b579fa30c992ab77deaa6a74004beffff41a36bd2d07bbcebb0be193abdc1e9b2c69e811cf0d3f84ac25db1b950919024f8f10f2457026870feb31cba6e8b965eec097173ddb1e05c78c0e7deb1ab141267a4aae6b8a36acd2933d1eb6818b61ad08941ffb38cdb6681514625c0d25951da7356e295,
  0x8b6707bfdd32571c9b9a31cbb22ff9c5e7bd6d24afd155f4b71a1c3c2f676b69d97ea38c14561602227bfde41b8eb08d6ac9ce9b82d44034b2e82cf463fc0b04b68c4aae08331f5b1c257271129d5cef9969c121fc3245aaac9aa007be97a3419de1182373fd224bc532980ed7c8d50af6a1853ea56ede5c2ecb0e1e88fad633493bb6b7f6,
  0x3fd1740e91f65274ade928f71c42992a862aee565e4485ab09c55f7f786c7b15c5dad511e6d7c8ef47305b023902870133f0bcedd9446cebdc3da89f3398856371e04fc6feebf9cc5b01d6a852349f8dc64b7fc9dc233ca736b709105224388eec9d998561cf4b7aebcebfc8e21badfdd701b030deff56ce6916fd4df0699853c9052c6c32,
  0x839fdcdb77076d9a0f9fcff86697f06f3f2f8f0ab97633ce0b1086226409963edca71f45c20b179e5b629d6af8fe6ce9c2b2d43cc7ed2393c23a215d356c718348b4796dfb586b1420a033db63717e26136a10338c85c2aebcfd4dd3cefac738530d69a616fe14f60f109dab6a64918b21a54f2008a5c04840b591f67bb7cf9014e94c335b,
  0x7c031c25d53e620c5a6c6dd1ace4cfe47940517bf4d5acf2713e14c34589622af60503d379087ed597c76cbdb1f96fda65a22cfb68bde119f646c3804dfa4aeb60b36f1bae4bd48ca4ebc141eb3cb15c8e967bb5a826378c29fa855efbb59fe99df2ca4e4d4e76426094f8a4e58745aa529b9d84a6c9757284c3b77075b0411616b864e93b,
  0x446cffd02f673b0c941fec367f79ccc39443ef65b5bc42645c06b948e04f90f123039694399d3af3933c4c75560a0305b3be81829e86f54bee054ac0fe816b643a15fca2937fe00ddb05bc8ec9f6d15cf5fd3759a34d5dc74eeab3c871838e7606e368f08b7f0a54a5e6f47e25715149b8306324483c11a7db8df3bab38968d0b96ff94266,
  0x2d67c7fc14892a8d64aed793931baf2e6d7b2583e6b90ac3f3c73e712f8221fa4573f8c9418aa61d7640b83f5275b1d0bca64e23422d3ae51c37574d11bfe46b50c47fdf2f35bd501c9710fe89456355e8d5352b5fa285a7be334a46aae0cc739bfa543677ce7fc3a407e29234478a418d0f93123f3fb79882bc08bb4212da914335fc8294,
  0x860d3856cc3e770595b4a2d3f491a215e58ee20a24532d2726c07ee2a97070c875d5f8be5e11dc1b8e5c5eee6ad9ed1108f8f4a853952558ed59f9a61c3f8e93691c4f0c55a7f12af71e339a27fd170bcdae16027b5bb0d7d41c5d3375e266b15f5223f3c651f35b8e38b2a8755b393a5d64915dca6825f94aa589e174ae8ecfd31ade78eb,
  0xa4f09aae2aab27e33acf50a95afe12243baaf50fe10e39e4d3c57b3fed0bc2324ee933fb04dbccc2eea744db5a59dea9ae11a90b5c9519c0f4406c9b1e04bd81fc0a489394c687ec91630dedea85bcaff2852ddde591f3aaeabb0ee8b051e8bfedac4b165f1ec1a1fc1e353d97698a072407f2b035d0a5dc81b03e7043060fa8bb243e589d,
  0x0d7aab669251919bdf83ba13751c32eb1cc23efd4630eb82385d5dab96f3e1f0c7ad461471bdfc7bc2e7234a2584a0b16185d59f5a9c99e96a70fccf5793cce968e911ab1b853b664bf70fb361d2bf02ace4d597e3cef0ede050c8277ea04604d51b22423414d61379736a8fdeb23724a9b47d8b2928ef07483e962159969f00c9dfc6efe9,
  0x9fd6dd6362124c49bfc44e624dca4fcefc7f1f93320bc180cdabe5ec15b93061745c172f4cf21dfb3f762e4dc1d67b90998d79cfffcb6db15ddc2d4246290fa191a3c6878a2473a492422c56dde3af4a3de5b7466ef1fdca1a3e5929a1c2cce4ca7dfc5ecb66a75ed033ed4e684b82a92d753cfb8fd3293e296389fae4cc5edcbdefae4894,
  0x33e64365f84ba6e780c9ff28d1b29d22e967a03b5f286755bbbdb05cca9f5674567f93efb1a01336f134926b51b112380dde8c753b89a7f655f6dbf99c925a2a65552890014facb715cd8f6ff9ffa1a1af70a319baf4002b58f2e351517ccd5eaa1da2f09e7ecd326b9574f27273d4260417a01318f97110cbe0716c795bcbb6ad60e5a001,
  0x3629f61e95e00bbaf13119fab643f3d953ccea27222a5ed55b9b5b71c53971f3a2686bfd54fb2b3f397bdc9005ab4eda26acedd7d135891810f5c8671e931b96ab673cc2790bc31ef8c6ed9078359e3287a91a1f133b5c088362d28a2f0d3aa59656585925357f1af9fcbe0273b9f8c1ad62571c75c8ab45e71185a42f2a5cbd38d661b7da,
  0xced37ea51910444e9930459954e0775bca02d8b04bd7e27cda19ab7dec6e0801cebfb8389f16e9c381ab19054477e32e56a00d479324c89a722ee19700d31e082570330dc27e9ec02ef793ccc6ca841d515755a87bc27bf2282c8cd75f05e69693ef2b307248d34c5240e11fbf66b8c33f43326e177d5d4acfff602ac353b0a379ff34e53a,
  0x858f7cd092883fc76440f63c7fa22e12aaba026a74754d37e5a5cbbf1c767bc9448a8d7aa3b7cc1b935dafe17f3218b1b1fd4bf479111d4965b097939b69c36b1120b6c89643c112fd839682e97def10e2372f9547d08c6be847bf1663c4f3de3e4457fd42d17483b429bac5d660976d80c5b4665b7177ed1faa0892974dd78ce9352bfcec,
  0xd24a45f92fbc88d3c6f2c6c5124914fdf2fb8e668d3d407ffbea59fa1d4745a0683234515655a634cf928a99bd8032496a365842c0c0ed84e4cdee575b3dd3b9fd32b0616e768ceeb5169f17823861114b32c4b68a4c1bb2abe9119b5e8c416ff2ad02c7ea0188c65d05fff430a1ae7178edacc576028c5134e856cd3bdd0ed36547e8abfc,
  0x71f1303b623b982bfa563dc180183a951759788fb0b609237c233cf6b84f529efbf8a2aa72f8717468f7efd9aff5f8a45b361929852b3f0441b40f0533656ab86686af6ecfaf6f196b7f059ea86133792e8a3eea923a33e523bfcff8d87b5e1fd37d4e5a2bb8411a5b6738cff9b7a74d801935c4f6a16d48abb50901037cfabd7e577d075a,
  0x5018ee67f10f2cf813fd80a5f76a6f608047caeac4a57dfda554110f2c48c640ae0a50e9e300c8f73900c7c7554f84b2671e79d165dfd0722d9f7755752603d3570324f6de44e843f5ee93375750d2d9ca95ebbef7ea604a322d39e7f4c891a4d92544439e2e83f9fd1335f095247dd026b0135b3743c1aeef4cfae409eb9de30773d8b726,
  0xf981173f6b589ab7dc6e2d9c1aefb6de339678b3030e801a42b30c44f0c0b227caa4f8f95e425ceefa07ca339d99d61ae80b27fdc5f5bec93088ff7d6f2347fb7f0d29b0bbbbfa12c104a81e93fab1245cfefbf22c2f4ebefe1284846569346222d7a1875181831fa9a5b6f48307869122cf3a4453ed330901bf1a3d570e22c71686535351,
  0xecbdb138e8d890ab49c3a3eb6f1f4e1929ea306eb82333694d4abec274e92175af8707e3e0e9d87e49f49cb49c1de4c99609d2c3c32b10495198d92ea3a03d0369455878f2aa574a767e95cec9aaa9b9948ffb0bdd45432c6e8bbf72f3141c3c34440f6c1eccf33d6a9cc2f50f9d8866aec8458e4fa2b463fd874db3d66bf8e69f2c5ec53e,
  0x97b72f01dee8493aeed3a6424de07ae059343f04f2179c745922ffae47f746c046bf47378b90052e4d55a53af61efb1af5793f9acdf4a68f933be0b5b9ff349e23106905dd5317762d38117ed8cdd0e06fa2e93c2f07d5d05f25b8adc09c9ad24988345fda7b10ec1fcc29fe2786f32fd80f558c8a4d2e9452e984116124ca55670ee4027b,
  0x0242ccbb1de8d3d43ea4fba3ddb7233433f47e211e18132f5902ca8465239cacfdac18e7589adeccd25ddfda728de094e5c31a1e21ce878adce881b47c3dfc67607273d89cef856b8f0e0b6784b3c37e10a5001f0946976c0883c0661929b1d0f8ec2f8d2da47905a85f858e6e4cae6b22c475c345f6acec2340752316b10652450b21eb8a,
  0x8d1cafa5851d468f8087716a9e47245794381f7a5edaab1ddd7f59bd81ad3ba42d3474164fe3f0b2ba06871da57f5252e8fffdcd322f94abf57da5e1cc5e065cf065a70c86241bd480bb1e3a27d1b9aca48c36ba6a970f2558477c84b31f974d9c5d6180f3db901cec10599170b12054cb506259100c5647fbfb2225c1dff6b1f90c91881e,
  0x53568adeb355499932a30cb9e4c9be8d353211ab116a19a5dbcd98aecd40a45657cb4cf02ac1a16b7eb2b796747947123f3413f62fcd06fcc7129c0e5c0f20d064f7d54994a1b009f634c95ebaa4ab8f0732cd3253a051b5e76e84df3ae547c0bfa5282aa3ba8c9513ab63e62d48d9b3b8ea05215f1984126c2f71aae4d2e21b029ad9b379,
  0x9fcdcfe79d46a986b3d9d4e88b40627b02bbb39c6905cf1b77e36d94261e08cca6ba88998a3a9240b5cf94c22cf585f0fd21a2a036653f45778e6d7f606f96bd6c83223c9e2bce17edd31471f26ed5b11aaf1220513e1e7d1340c395923f1fa6a8a4500511aa51c9e1917024a5abe6074386a5c2c287d9823769d8cb33ea5f5350aaed35a5,
  0x375c7b4b4066dbadcff4b6cd161ca6bfbda505a634f42cfbd704c179a9eb5f4f5c4058240c1d421819387f8279024699ee770a7b56462d40ecc0ff55d0a1c01380a52c92f468bfa7d0ff490fdd947932d107002bda94e48e612db79d2d7631531e21806fd5bfdd18c001a44c43088614c2f816b88de7ba06d1d602f152a0a1a60ee03876dc,
  0x7114e88def8b5a442d3ddfad0a143ec4087a8cc6d1e8dd106d2772f67cb891d8cacbaa2cb46b0dbaacd7d26d1e980ff9a46ee31cfcc02005d02a3c5bba5a9c2c270bb06186042f8e13d67bc6645483e85f6086c3ac9d7c768ea9b816771a3d89692e6439cd83fc89e17a33cfa2de5ee22a09fac8cc28ad7ce1ba3acf28ed4da9df9c85c56c,
  0x4d94933ed1425f391576b8966f21a117de96c81d5825d6410b0863ef880991e1c9fd46ff7e596f5736ed7b89190a41175a2a5c9f033f0b93689058504a7f9f52bda1b3d28866b3e477fd3f6379984eed2d923915326f820faff143efd25c74ca23dce90f7e2c791dbb4c06d8241949cec9db4ecee0bba28e7ba02d1ee118c58bb3dab426f0,
  0x1fcacc12e26ef86257f8d8a5ea67f9a27102f5600bdc5edcbd9cbdf364783c28f02ea31179e4f8cdc712c50e547ac43f628d3fae16b35ba83c9229926075aaf4f81c93d2175e1866ab7aa26b9d4f377d1b61a9b62db7ab4502701552bab5c6466e6e06dd3001f2b8dd92b2934512723e240c73065cd1536f4d03f0be065bbc9b6840ecc07f,
  0xc6a15d2fe2b8922dbfc6b6e511da8bd3442805969d3d6ae3b442c89646f7c21dd188310ffa982a0eb173ceac6a42b5a2729434b8ecb65195d0f36a8d2b2f19232b6ba13654a149c7028929f8d17364e131a00ff0927acd6b4c0f66168d066bd197ed633ae08a959083b9d7e580fdb92aceebbd244dec3c8816d6edcaa6407fec37238d3a67,
  0xc9361e8f60807c00738b127792a4ebcc8e5de2967a80ee334fb127a5a74ee6314f61e4c778d35a8aead55b08e39c0a1df046265a18a2f3da71a2cb7593924c7dee1b3b7a110a1a7ef694f58aed1a71e3a1799ba125de738b64544795f80b7457448f080cbe9e81aadc1d527257cff065bdb4d66ac9204371d74c30d4ecfeea72167092322d,
  0xc6a64c3ca04af5b529050203bd4e62607eea8a45dfe7c3f32066c1cf54186eca571fd768227b722b54541d9ab64e6452ed16290f883b2504673db6741f779e54b46f6a79ba920a5ff0a2066598250cff7630023d5216c75df1964154bf32069040cbca07ffb0c11e987608bd59dd6043278efe31cc402858ae981b4a85d95576c3d2eea602,
  0x4d992b54d1b13c204fe01353e3d0f50b7bd7d78aec929022284e28ea665799669d4e6a81b130794f2a221221df07d95bf2a98118f6db12ea565143b77654f1e11fc047aed54ecc33460b69cf4305e37ffe05338d54e93a66c5c184c30f9f888c6f07a22a3216a0c2abc88569bf1ecb1ef49d59ba5ae0c2dd94069018160c755f652058feb4,
  0x35aac8dbd42b3f7f4d5295a1f35183fae19e628369b320311d524066b856083911abd90cb363013f1472c79cdaa27287b1c833cbda40d925d61eeca294f185200032336465346b801c8e8b1fc009babcac7538dac0b86a6ce6d5ec88ec5c7ac96f49e8e18550168ec131897f8e6c91adc7cd06521922454bacd1ea59eeab933a0fe10638cf,
  0xd32bfbbc32c5abab94cdd34fa88a53970013eed344c28b08d6c6f6a17b0e96a76a31b7e02670b07b051542c9323db6b361ebdb609524df8ae021045c0fa244ff9ce1d0b9e31972e0b90b8fa7ed5cc701145d2acb219f7c58310dde9f57212b3ab6410a6111deff10423095ed280159e0d73168342d79a23af5a9512aa9b6b9815fb88db8d5,
  0x906380d45593ffc571fb9181cb66616c83996710f3f000f79a55feadddce25f1ef67bc8d7ef1b26474931fde707c6c9e3a776b3a8d5a546ec97aec9da2643b46fb07fca29951d6bb7c5fc690dab2b165f8865bcfbebea2e21f9d0d0f83a1a3f65106f0f91491a23b5a7ae9b6542d089ef33f7113e612dd228bd05968a52d5cad54262c7b1b,
  0x87020529714cae9a3c939c61014e7be0f94ce69f7d929369d745df004d20b5e2def06cd17ee8a687d8a013fd1aff32a15811e7961976ba25971757b2ae4e0a8b4a837eb8f2def9db3f06e8814e6e66ef8a14947a8787342df45c9f36b0a307e70c7b527c5625d8cff3adb29b414a956aac0c0d3e9d6643d474e902f39291bd9f5fbb1a944c,
  0xbd44bcb47d7ae5f69ba9ac179b002ab33ffa275f2209009a9c313f284ae94cc2afaca38ee6b51cbf6f5120e3b3ed9e7f5a0042e436ea6c7d2585c3c1fabe7d765906c0571ff55ef2a0ab3ca5b0aaebfb98d4504e9163a34997cff963bb029a7c597bffb699f99e660db29f152656b818f98ea01a902b024e52081f6f488947d5b746bd8fb8,
  0x59f45345a216770957e325fc24e04e21dc63d62eadcc71031556d858ceb684aeda6aa7fc7f2bc765b57f83391206128acdb5d27fef0999a3208a33693ff08aa8d574ebd9bbacd95bc6a88fa92b7b831920ebd69ba6dbe8729edb5116152970425065cbe8ce87c777537d8dbe39b7e1ca1d8d158018ba54ceb3365b2d79edfbe9446ee2590a,
  0xe68457f9e202cec8b3357a3c19613c941cebd86c03531acf3541f7d02e45006a56b216510a93f2af9ad36cc4766f634d286b20a64a91439729009c81639be7cb8b6ab2a2efe5538a158c94d30a16948becab2bbff0901ff5480d1aa2943e76efd37dd7d6aac9923ad52d3ecec0855551ba13b1b791e2e5d9647eebffa0e152e29bd5922678,
  0x41986909807625c4cf45e7bb8e0b4a744dda2c6ddd8c356c0678c79e3d96d6d36ece8035badf87b9858dec87fa7beadd3fcfaf77571fb4b37b87e1cc19cf0acfb882cc3ea43578db925a66eec5c3feb86326e5d2fb07bb51549f503c39a9120b1e0c562292993e84631f2c4a6b24cb9298fccab7be03649e85b1dc33c1314427b27564185a,
  0x89a1e93d10371e5441131a23a4e16e61fb47f3b9ae9855dc7e0d54166ce41b8e443cdfff1cf5383fc466340ec50d73280958610d2ab817c5a00bbc7335e0c664354038ced56286613c657de069870061d6764f57b8786ed4cbb47868b8dfa409770431db472007e73e09f7d969207d41f2c0d9ed44169bf6d0db956c307211dc8dd957c982,
  0x3c8e73c1aab39a28cce442d10923882bf3df03609bd08c9e12d71b7d37e463a912a1d7180dd6c1a5ac04f4ce94e737cdf0790d5e0e8e451cd6161c4c78b92e13bde60f3bb2d7cbc11581e8e347e141873aa2e6b7f4afa3bdad173786899d749a979d07b5c0a56c2af37769bba8b8a1d4df6da3973db9b050a7a02fe9bd52396d9c8d0ad152,
  0xbd0df01d9e7f5e98f50c407d78ca72198ffb5c78308d27a9fddd95fda5598bb37b41029f0a2db052548ed1643196b2fcf6203abb0be209093c42b2056f7d1577a1ff005d560619c8cb68a1c6399ebe446c9e3656afb8a37dae732bbb2bda84a30a0e276fa1371816f92ca42ab1749514d13950cd750f5278427d47aa2e7390e8288a134ede,
  0x74394d7cab92d2d7c7ab4f3aa87c558535c41c0964996b18b31e36e9c8a856b5d4e6abb9fde9039b3204358a12899686cb0baff71c0ad319d585efbc27a60fe833846ac453c3fba4923f928e7c124547094bd01a54f35e86d54c5f7b15c74191228d621ad823cabfda2c8e51c389a617748e466ca4b0237eedb8ea2815a384abd2ea79fc56,
  0xbfe789da6c87db6ce514118200c828bf7775a66e975f63e61f0164a8a944f1acec4abdcc6cf6ea4aa201e3802af99a344a02a48b4c300f7f3d99e93a12911b7c54720537ce161080f25caa8fbe894d480a58dc6c11c936b7beb045a8c9ac098f0b85050383536594f9fbc65e20e122139e925ca52f6219f18cbe82e6f1724c76d648c5538e,
  0xf1b6dde5b7ce459f13a6a1993128bf71fe3614fb9cb849135dbc3e7604269901116fc5c76af6c1da77ab880dd30eae12ef7b53abd6d7596c6f4947ad4bcd7d70ff01ef922ec124bacba26a7433bba3d65736673eedf336f79ea3b6e88d92d856e80e2303447025c99bb392127174e811fb7421e6875f63bfd0c4061a9f4c6334c64709351e,
  0xd20fdb9870adb9d50e53e313dedb5a6e413e66b0eda1f29341a218233584e68ece484d0d9415475b76f4933a888bcd50de19030b586cec0a82d79148128f374f9fec999f9d65d6fa9a28e4fe138a8bddae60f9f155e2b492e877d7f60f3a4b9173ead2af1d7487e261f02dc2b5f3a177897ad18827f3137d958c4526aa16c80bc2811a7f09,
  0x0a89f93a02f4833f5735da6cc25a9f57b8ccbe6f95351998483d065a58e2b3703aa853c02e7af97a89c56a93debc4d23b05ecdfd607aee689b62ca77ec72a46844c1a79f85b2c7e2fbd52aebcd1e33a7358f0f91794c258f9aacfd7e09391bb7e5b5b546feeb33b5c6275c879a43aa5450dbe9fa0b9b8d852054ead0f8d4e07ff94409630d,
  0xff0893f128dfe413dbff32f9d5c490c7939ba6cb19267001a22664684a8071499b4268a6d14fa20f5b31126850b31693b6f72a871ce13a7f069951ade80a4644cb9aa608382bbba2843ee360893faeb59b53c08bf79d41a90967765dd12529f7451b45d8f52b30b3ea1e5bae623469bf92a00062d7fb7e788290848ad2ee7bbeeb6691c187,
  0xe804aaef4e2f4fa2271c23336ed4865df58a343b50c30b86448e7bcf5b743b1fd8206a5aaace4c03c9bb82463e18813962523f4d985e556001f915d901422dd2acba1b7c0dba48136a257c659a06df616d0fac53fc95ba98c074549a72ed289336144ccba6c777a93ce323a0a8f3a32f29c42f2cb0d9c84147b34133efdf42df76a925dcdc,
  0x77b442c464c86cf5508877545071330d9e6046afd99d08a6906aa1472a60df0268e3467bb54d6ab5bc0d1bb1f57273489ee040d5b4e2bb2625aec6e6267ad0ef91f475b4f8b55f3d04566d515af022c9ded306b3ebe16092eb1f5db2be12738d5c9faa66dbf9a56c3bb1442bacf91b6d25d03e31185356a2fd634a34ae8156dcb9e8cf72f9,
  0xf0d0a53e78c53009f302bf6fbced7c2810f62b3fd265ced3e0e136053961e2f697334b6e763f302dc59274a149934ef343f5990c046fffcbbf25c5d2d6ef1f3783faa78c8acb895d2d78b157e608b6117b1d6b37cb7312a43fcd25f229b4d0acf4e483cae8c588f776e0ad3bb0d79c8da259f0f256f571788991d61f645696fdcb696f1c5c,
  0x0d2a1486e00415d5d5f87089136b13af305bbf7ab6fbdb1ac35d79543843cf607394cc1add82b7268de413dd9a82c3906a01b14c91dc79bae8ec0fc6ae9d889ca1f5b40a4e233cd4d3bfb0949f779a6056b73acf3a90eff9e4157d2af57a4d375fac4fe011d703ac536c065bff5b5b276b8a208ba1d259326254690b5c36b89d61bb92cfa0,
  0x5f69197c4bb5a5eeafcc1d176c4566a75e8540b515e1e9e146617384cf07c979615c66ffac9f7ca861980def8a38d1a83c8976c5cf4458951162e65bb3e4c6231bed09bd73dbd201bfb8d37e11daec0aae1b691c8bed689a1efcf6a08176f7e12557e3ba88233edc8388ff612c0eb5dec51c760d1233348dc312db33df84e5da4087a116bc,
  0x65a7f305a61048ff87e8ccb51f9f5d137160b0bed08a132a3bd9542ad73c55018852252f22ce0a77a7393c42c922ba4dcce5c141da1ed4256cbdeb427ac0b5683ea4a0213a4303e6296cfbbadfc65a45196b37a0c558f13bc05c320969e146d67802a7698e5c952061d18abb4457241c07fbaf8b4e9d14206c034fbc94af94e36d6eabaccb,
  0x091b56d99afdc8ee77a32a57c035bea2a38d74c09a3448fcb40fe2b5158b840c4f30685ab8a7bca9def4413035457b146131c8279208de0b1715c771c76f06825a6d6270e21c18876d7f959870de3ceb1ec48c21cfb920a0ec05e04174a1b4ebab1dde0be566239f3ea00270b8617e45ace05914ba1122502e2d63fd5b6a9c9bc477a5ab97,
  0xe8d9c5f5187da21f19dae3ff7be93e529322b801c4cdb28f2a1b2d5a6b7b9108d18cf4851ecaa11734aebe4216f35f314aeeca741735c022ad8a343104ff95849fd784683ed0465b8b5306633284d730c243f45e6206611b483aa73e2c893565d346a208ec8fa840e6ca4ea5fac4490820d5156cee4e7a226c8d84fbddf1dffe6b366f22a3,
  0x1e634509886a5213c45d130e81b5d1333e41ae4136deb591caa3c6b24427d2cffccfb7e4f86d6aa5125d4a57c4735a5665669ebcd8b881e1a5df1782764e0966701c19f09a5c2b11ebcaae90f1893685b04eb5dbaae9dd6a6e9207ce4a74b2129077474778142e547d3717504bf0096c5c50b03e302522521e72b2e65091f37ea8083027fb,
  0x07136dce4d2348c8ec24f11d9e457e48378ec796c50278d4325e3195281e5ab56737f5acb45bb3ac0ea577271cf9ba8e9fd0f32420a5eeb4f8cd42af34c3dea876f70ad135863d994d47b00a07f3c2e1b034e2f5ac25f7eb9183cce458c01fdc1dabf0cfdfc938e4abdb613079d19fdeadf782efea1390ddaad4f9ea5b6c9f021134cb0f56,
  0x37ccd82e372338ff75881b904ee9689142c9683428ef635781930697b526010a3d68f0ac6484d5524ba460db701227b48803d0abfa4b8fecb31c05158e23f6a2278291d4c7c2e942de70c967b0047ac4a6d3bf07a1ab9b8937fe70157899339af0d41936502f811c155b36a440aade9b79f3df25e21ec39ab5b2f32e708b6aa8209cbb9bb4,
  0xd7208297bd413b8fab117d86be9bee70840dea8a35e3faf51facce33fa3571fee69ece222e80247622904fe8f30a65ee07e8d4d99c04e3759fec9859bc8d966af80c23c56e8570d2845fccef7d627b879c9e15d79a7ad95a7d4e5d51dde13cea6ed33683351682f7de516c6168cbf1577e07e7f5836dfdc752c1bc6641471578e0c500ac59,
  0xc07e9ed723cf2a07a97262f955e78bed7fb92bff83fb2677c07c361941fa8a016eba7ac816004a7d50c2ac6bc6afc797b85318395b5ba949046f6162f3cdeb1471e315420e07993be3932790d618ea82f1950cb3c1b1b0786320fc48d9d92450d52b132bcf7fcac3ac6a24f305ac0f02d3744a136f1321e1551b6fbb445888bc2af2211364,
  0x30528456e18302b4e3c74dbc43876f86af82990185a5571f18c8eab91769579ae737bd9e4e8154ead8276394d281be4fc525844c0072466a4d98965cd3cb6c57d3a385780b56bd30866e4caa7982bb79cb18f7fa1efb181f13892d0d63e3c69fcbc414013877091ccfe0b97437af623826d7256c915c200cf0170be5ba4103e7ed0ecd71e4,
  0x70e9e7a98486bda7cccf2ef606b52cc598c1aebd34e8ca89f3b958a3e5ebb0667e04f650eb9e9d5f9bf329cc3808dc3a65f01425a5697dd6fa0eb876a10aaa46600f73437602c55f0be2385d9f9faca62f05a4ce126d59ed6c70970e1f83fd9fb54c2b5a47b4cb48bf0c749408e69cb7c42678df461e92cb57ce6b377d3787480ce2536cf5,
  0x25a1f67603d83ba8aa8f12feeb40545e1d7177a8aaff65697ca1ec660a3b7a568c2a351855d826720d6e0086c45263341c119bad12ca7a477614cac494a7535b6eae6aaff0104675481ae7cfd35b6d3ea902832bc7559da7c722c5cab2fa6ec7e6e43629168bcaa3187e9e9ea094d484e0b437ea742ff67f108ccbdd499e14c85a607d138b,
  0x4ae6bcaf730aed87136615c54b91dcadf198c79ce2293dec22001ed6b6b66d3d52834080e8cc2a2343668abfc87b9e3dbee36e7b13f5f62356c1b5a510fb0e3bbea5531b88e07cfea88db225de5269d4522801b5426140d50c580074d180e0ab2c7ae953e376ff8539bfa3f44aa9594b88efade76934f61bdc3e85a3600595250cd8d3bcaf,
  0xd3a59b9f2013a25ab29b25a0d81be5d1f78b010888de1c195e7492d1e2d6c49cf2c2929fe70ac68ffe84c3ba437ae8224c74458356ef888c5e958cdc2648c95e536da3964d4fe8c17020ba33c2d363dd2d1c2350362731b7d01a2b29d1df690127c9ff6bc29ccb88c960d2f57b1d22050458c9851e2d830d76456096508a05c801e1bbac06,
  0xa613e6f743fb48efd32a07feed859a001d8f8fe8e6d6e8129b521b2443b0ec1471eeca78fbf8ba6ec6459ec7f23304120c3e039b35f5aac532d6dcc6e28472156370d310644d55916a0fab11ca813cfd684a970da3c76f3088d89e080c31e15f31bee88497dde5041107caff614f42ae480786082bf1d1607b91da095a540cf3331d0bffa6,
  0xf40bf159bc7241f3aa8f17431854bdc8d0afcd5d35383eb8fee441677f44fe6ac72d0d822be0c5e71ff0b3bf15cfbceeca06c7f1dd6d1e10bbd587ef98d633baba940c4d553ecd42215ad8940020153f34598e99f88fb7458a718516672108de249c259aa453efb9a6d72d1a67af8f657f892aa4733a0ed24d45ac5bb41b158389aa141b4a,
  0xfc902bb702830cd5c7284d0900584d887c99d5c61bd78fd6623cd014726eb907b1d43937815f77e38a5625eb7e762ae358ae0d57d5c77a663c1148fafb5d1beda7fdd605a7e2356952e7e301412c26ab438da9009109e490817faed52d30d75636f2badd5d55501c2dba5ba8cfcb55c624816a5899620ed9455ab33bb7617360f7ddfb8118,
  0x16a8aea4e259b92d2bc1d149d57e4fc068fe3f9f133eee3e59e28c2e1411fe826d35af6b451577437da1b252bf1464f2ab2a7556511c35578aa6ff4c9ef5f387576e9dc0b02929a323fabfb5adebf70116c498d34e1a8e53b6ec6e69d174cc8f83c1943916fdeb52dc81c4b0ddce27b528c244ada464f99985baa7fb662cd5904b7da68543,
  0xe2fa2ee6ca079d50b3de7ba5310c380f5ab11dcb06b00c928195de563f8701a5681a35172d183d8f5b3548c4fd19faf394e32f6e4fa1595514c9c165b6d56d8f4732d863d644f352201a774ddcf9c76d097c771b5f80b973aa27a99edd5efc2077636b0daed3d5b19349526843477319d3113840bd04bdcee159235a132bcbf4bbed27484c,
  0x84e5582d97fba36306469cae1f68b24e6c0f4dffce6ba8c157973354bbaf5f2938f8364ee7d7665f9fe8e60c0ce7e5302a18ed3a75fcdccde16ababd249b2faf46b0fd4088231c12fe0b7430e216a9a453c65bf91ab6a6edfe37649dbec98c2066e16b100cef3b757aeb67270732018f5ab3c09ea044dceea2e32732d6c26824f057ec110d,
  0xc2b21de5fc1e80efab86225fd23bf0b8f4cb25f9e8359e83f098dad221908cba99b7d387e7583fe7aec4b303ed87cd2c0cf6fef154440981544372f6139dc9c828f847ef9b7a042960f60cdfd2e53f19de45e36fc8a171b29b64b856fcded1709b128b88219ea6251e550319620c03ffaa191e67e568177592f2e87351466ab1c0fc3ab284,
  0x778ddcac32d5fd3e23fb2ed007853a699946b40b63bff1b1a3a465d7af1667ccb4a08af01bf03528eb94ebdfa918c2499cd8ee5adea6aed8651275857ccbbf67d5ca62f4b5dccdff38dedb472097d927defe3022ddc14df61531172696681fcc10be1d37d2e2d75c1a151991f2f8d47684dbed76b3a26dfcc03c2e569069e7a820f5dc99ea,
  0x23891d37e2da57fa1e1fa710f52ac7250ce30f3315605a6090aadb6bdc99443124bd99582c27988c14674cb40e6ce364f5ecf92d1d0ef3a2560c4728746fbd48215f7547a87af02c62bc51a4dcd3731ac1676aa2138d550bf04959636e67cb50adc52d69027376e2f99fbeec416fdfb464cc1564f500f8414b5e655a84d0c486b196ec713f,
  0xc1ebc9a6ba007043b30fab278f66085582a25ce9075b87664fb6395bc1a3afbaf7b25127bfe793fcfc86cecce3488dbea6c5b47cce24c3e8ee67c1dc9dd8315f6b8d78cb8ab1f5baf0d1e2e8a954a54b7fa97ec9a1be380e0ee862a6db863c7b727653b27f79b2bfbf183e06ab9071b40d056259d1cc9e4b94b09312e8ffd9c5ff591e057e,
  0x228ac6e64f559a67a058636bac615c35997df7e0fec84c71892557449a9695fe46c8a0c23989eaf5ae838693c18cfece05fc7399fa348557b0e22434ae1a270ab3d84faae9ac7f3bd33671f3ccdab89a62dd06d4b1d539fb44f05d74dd7c7c14d2408459de5d7c789b076e0e7430ac4bb29e91c53b68f05b88b828edb31a42b58f7782b7de,
  0xe3911597fba94cbd088e0f16c121c1dc32b0cc5ebe3817cdca47e705fe03297dc274b80a27133db7297672af9b38f899c5a956c39a430f7eb74c40bae4a53b2e3baa076d137c2b457109143c3b817e56a288bb2354a4f18c6a4038f0bad733ba3d977a344acb4767e7417c3fcb8c48b168195ee621dd408caee757ae0161c3b7bb053f0504,
  0x5523a1728e093d90311ae9915539e17471dc67f834b67724275416d2b2dcdbb5a3b33c75f41faf7318fb45693538df627f0d4c15f981ec4b94d8329018ad9d03badb0c3aa6a422b886fd0feaffc144972ee5e2f2cb259072d6c20e644c7bfb36b5978b1cee85f255f447f98189be7e91063b073870533d75bae742d85e30d8710586e8a9dd,
  0x26503822c93911343baebd3eb930515f602e259abec285c1f96cd1a4e3cdb74139acf84ddd91b42d090662c3522ccc7f9f4cb5aa5626da4346e11935409e4f69d7ee0959738ac4622310d2f39cda5ca88e26dc1452f6073e7ea48af095c87280c1fb5d67f83fb385d57bb27a8b6ff48d8d2a3429043a4df048f6ebab55950d4a97c3e1899b,
  0x1bb4b7103fbaacd121e70ab66766425cc51aa31b958cb9105340f275df56f6c7bc67a323f891c5d3b50716d720908a753eef40e51f50587394bbf18da0bd8128b0dc61e198475c453e41b2c740b44652a0188f8125dad15e77579b4392e0fdb5df5ecb81ac92ffc3dd2ed62e6d43d3cf69903b13b78f9943be5a83d4fca4c1746f0ff139e6,
  0xab92f0f36cea3fba4fcef32b64f6dda5a9e6615b10cfae8da1a27df44c5c36613ddd67b330e632bea0792cc43b4228411b38234e71388b2925ffc64a7098648af4a4b3f89eef93498751551ed4e8eb254cf7a0bf74ca8431cb4e75fc6f313fcb541b4f61cbe98144c2dca6755025ccd5f4b398030ca98b5376f303684a31f854c94a3199d0,
  0x3332bae59362310781af2c9ae1967a8fb0d0007bc7f8d6794c7147dcd02b19fbf53bdd3ae39e5902d75bc221131dd75b4aaa7dd0531a9bf883de882231e40e63c0d621d11aab4b0362aac542b408fba7315987e83e6e210334ccaab2a233d0a761f5a70b5d381e9b328c60a161b1ca23328a0557fd71ca3a5532501ed9d023b67638175087,
  0xc3205a01bf723afbb248675cbe38bb4a24ce23ee5bfd4937bfc3dbd816bf11c846c11d471554d5f72c71683926b2e3cf432565e58fcc327e9166fa1ef8c3d8c87bde330daaa02f2e28d98ad67bfd7383331db0cbbf2417fc849933e524f9a9239cbed45b8977045c8d1699ea7c67fe5de337c3da8b5310e93b43602a965bf83c4f75efcf10,
  0x6559b046ce30f22a39e9e588ef39d48a680a10da8544c3c1fb34978f7309b1a0d57e2490d00889272c198804b44345418c4f44b2e7e71cd002a7e4ee8173197808bbd0a717c6cc5adcd436828c4ab3968ffcf08d94adac4806e31a5fafd1c06b905bcc4488ae45b4791365d18618a28c9db3b76de49bc29ead067fdc4ed5c2aa4181ca3107,
  0xb84766ba4962cb6af3b1fd54b82d4e93ea7235159e9bdf6d0b3657b5a0db9f7b7e9d3bd31ca10ee6f45197d6a14668cb8467734bc6ad64aae1b17f853626e095f1917f30781a82e8757b100c4056f44cc15799b9c0ca810156a1246f83fa79db853fe88b953b1ade1082c43e5d5fcb23ed3bbdea9459631f3f6d1b67e838ea8a8c45664eb1,
  0xe581569991feba6426379e069acc8d148795a15e21d421fc1884aaf018784637f898ce066a70e8f42ec031b7215302143a5aef0be627851fd2afa674e27151d9b1cf5a51f38351c12471dc92a8530d59d75fa1074fbb96ec0514db955babb2a2096fccbee20542042fa0f26bf6965b919e0b53fe478d89d78f68a40d2ff6983dd4e29bf6a3,
  0x8cd639249df38cc10a5ff5ae863f9983ba927f5bd70d57bddf6ed6ea891a523eca82ceecd94ff1a89acc47cfce83200e47490833cd196f2ba721dd829eb6499867ced87fa2b343b23c1b2472508dcf4b8d68163daf76d3181192dbf95d67902a1d3a868a33084d3b0e8a359f98ed1a01e77e417bfe2bc7ea31a15d50c55350ea0daffee0d5,
  0x2a4012940cfa54f7fa0000da2f2a051e97507092d761036b452ecdb780dc301389335baf44645e78a53f5e71d541c9793892b829d0aacbc4bdfca9c008789af81474873f55648d084b8219b398dbe617d748e96c8f1f58ca75b034c9b0c60afdda7d48103b0524bb2713f186d2be695ab0e75b74ff121689e314750a4c7e94f0aa08081d70,
  0xb3fcb8ac8883b91b55655cab06dae632999f0edf684eb62d70e855ac42eba96d125861433133fc6124d421772233f7a083bf913ad61cf186b62f51ddefff01dd78f59c4665e79c2486a4e4e12ab4987ef6413c929aab283ebcc5790e594053c441664a0a25e29666aa888fee6fbef67d0f1c71b02fc4268087c4991087f05b4ff4b4f64487,
  0x8e528ebd1b627281e72d8619cc962492bc33983086dbca7ff785805ff7d8cdcd867a823c0779567d3199a94e658f3023c4e731560bf6381a2e9145efd5091b602bc0c6afb05d21a590e67e44f2f95e89cbca198fe5ade0a67ddd15219a398c70533772bf595e32d609d59b59260506d51e5702bccc2ac072eec57fb7b0e77326c123691b20,
  0x72328cc89f3e7848deb4463a36cba036c06117a82089b6b1163b826160af1262ed1a1e0fff8bfc147656a4e555f0e1a238dbfcb3a8b4a096166026dbee8d0f91bc2b1fe3a9f13edf361772a819ac83234ce5030cdbeba3dda88a470ceb0d19ffe71989113b2e49f3b302af8e50554fde67277d9f5e0d9225f869f04b4dddb2319200a01868,
  0x3ed0b9e80b3ba76a75cc6241cc3e4db2c82981b0768e0a77af7b931b5a7372daba4546deccc7cd73c49bb6c6d2463d9d217d99a77d30004d2b34d5934fc271a734e98430c89edfe2c6c320eb8be928488879e88d017d36be75c1dfcd3ae77c094b6540be0e17570a3099ff06edbb40e23dd1cce2a23c7361061eaa7ec8a20cc2416007b916,
  0x70c8c95cedd8696f90cd1861530538b5c6e662a8376d3a64a0ac943ac399d30a0b8d04702bbdc87c6a3bc4f3dd376f9482b358c578f4474ccaab6e29620f71b0a39b4798ba6162f10319c44e6ec5ba539e774628e5d1178618d933bd44604be3face3f89cf0857ab32e7ffe340ca16c4797492360395af5990a0208f941efa2a278ba5c835,
  0x624972cceb6a442411d1d840ce9925e7dad0e333a8ede87a465ab2e03be766cbc62438599bc703ef678a87073ddb024bab5bd6b1038cfe9117cea45f87cd4e36882de2674b0b799b0e27640afa34eb52453f4a9ea866ffe4b8ac0d6f390e5e869b30ddbd1f5e850ec09b0082d1e2ad97703f937c88476d5d93e34f3903e89e8153bbcf7b3b,
  0x5c19b50869a4ff645a77a797872cf1f35bec61c6e85be41ac1818b95c676b21dbaa4ceb4c72f7dec1996f8b53f590ac81a2dd8b7e7d5a1c62a8a0785b42032dff19c7ec94e9c3f2453ce7b6e106c370843e0b597dd9fe9bc0b77afd59894c9353725967eb25db89977efd47dc5091992bc5039ad84ab352f5ccbd1c121fd7148a9285c3e4c,
  0x380c3966ff6d284ef5f2fb567ee4bccffcdda63ed9fbd668169c9ec331cf59e9c1a8146c9eae54af5bae616badb77fec984e13e1197d59f0b90f0afede5797d7950d35d741bf1220c58ab86d3b0820f3c592930e9f1e423deaa536f329c05faeef367b6d69b49d3894000a862ce34852c9b68033cec216017a622b3d8fa3e1a9df96c46646,
  0xce5fff2244eef06773dc6782862f48e7153a8e5fa7680ac2cb85c9de70af8c9bb8f49564d94e61d2b519d90e7650c4efd8522988dc5742c95993aea8888b152cf22d2db834037ee032435254c43ea4e228b0969bb0fc29c948d10aa09d6dc86b37a74fa45a675cb37288381a6837f3a0f8ca8333272611a1e12a8568c0c8b108f81f51b58b,
  0x266e348845dcf4cb4e8602825707ff304732793afa1dd13877a02b43c144be6387f64326f3971435a83bf195fe7a49ae5afc827993364a83158bc9195bef7daa983c78351b6e65cd488ac9b84efd14b78fe8b97e291c3e509e16ad80af170a554144614098233045aa4ce2abee82728f13a747ea887e231e743a2b602a6c979b717cbc4187,
  0xa2b63eb1d79abb79a974e49401f7045009dda6c8095ba3a5b9514d5daeb4147f37fc86132e1b7bab1d7eb9d4917df26e5a06229c37ef019725b592f7955b2453a8cea0865e6aff114826a58d89f99f95e3d454ebb676da7b5afa8b17f64c3de9021d332c2d1665e1e950dd17328bf01f8eec6e321b4f8de23f553d88b603ce836b46ff5a79,
  0x110b4c239958d2c64e38ba27588c155342a7629a090b604856026388893f4c017de8fd65ad97126e92d4f34473ee737714cde0ce20f709393815c7900ac9e5e37c0793f2cb24526fe66eae3c246683284fd9b5687e1f3911683429c9d2fffe635665a653552a9bca4bd0d1f66e26211b2ba9fab53d6cc8fc662f6473b70d6420d83540500b,
  0xf3ebc5458ebc05149d1b0a86adc39c53c4d71b7b38dc4cc766ed99c250549a050bd7016775e47467d7738116b2ec68853b3c3d83445bb1140668e252b0b35fada3c2a49f3bfdf0d03e75f77af9159a471674a4336b71727b30216caa3857cccd234b3401f03b8d6392e8ac9989e67eaedae0935c755442d14bcbe0750b30f1a27c36c298c8,
  0xba6ca4fa124f57cba70caca3e5a4f3a6fb138ba01b569ba3459452c7c62c1349e7c4530fb22f9f3870f8c0552f46335c83fb977dd1b352afa3fa472d4a0e9fcee88861737a581ba3a3d5844fb9fe33765a696b5b91ebd94b6fe6f4d436eec024595e3b3e0c71aee6dc92fd26224506cc64dd4c2b045e7ad5091d331419ee245ec555cefcb8,
  0x8452b82173df6253e5d1bf78bb9b5056b0397bece39a44b648ac90c2ac9de5b53524534c49566d24c717a4dc099cd10c498c9054f6fee755c217892258a6e5ba33a3d73600bebdcb46c67fc4b000f3c4e8faf878a33a44f1e37f66d780740fa8ff47530c5c4858b1d748407f7e69586a00cbe3601a5e2d116268fa2ba1cb72a03413e3ae03,
  0xbbb94a8b7bb7509076ad7aa3ce5e9cb92897ebe2195682e4a8b48282bca73f9193f9ed5e457d407f5b14585ac90944252e96bdb845eb0e33c5bf35b8bab1cff4b8a158ffcd600050026b5bee12fefc52a81f0de0938407078e00bca109c217272eea8150cf37ff924453e5392701cf10623e8db1c215edcf2efa21facc67f516e02cf88ba7,
  0xc60191031222b99bd5035c19cb8e8fd65775e4da4e766116b4eb30653e14aae650e6c21515ed078417f21f398a5ebd76c9215f8a931cb70ef626e081757b3c8b1342af221e674309bd71a8b2df556831156ce64f23db9459b8398b73a619da10f91a05a0e296266b0fa866dbd20ccb721162c3f2897ea478769f6c688e66e84477868b3716,
  0x5471720312fccb838a3b9da69e509f983f5afbff4b18b1a24bd4f8e3ada2f0d902037a517e1efbfee348b0d472f56c7e75adf090b1280c7b67e94c4c5428657112a83ac981830591bba1f385073122df2be19ad7836f6cf937647905226079cc1bc6e583a1410ab15c932dbb4741a199744b130b109e39b56d12f0ac00b507af4bdf221891,
  0x3dce631b873d5a24f6239e65293dce34717337c0c5ded03e54e94f4a450a340bd8005224af2c942336da5f903996e66e5c60d5406f7b441a816a794c31cfb28f3453dc8a8d411c72e147891c35f8e013d44eb5fc3a679bd9d67b0efc0f3af73d354eb55b8c1c41acfae7ff09133d57db53b0f07640d397daddc055730033e40d65de8c979b,
  0x49e82da51773ea10e5acbb6b10d394b326cf5c76dabe5eaa77fc502e8eda4a6452b3ab1353566b56655d6082c5c565912d46f74773edc4c0c0ebf4f019160557c8cf51714951c2243635419e6956d8513df84c01f19e7d67d42f26695c75b1f66a49620a82868289145091654feccb259db3c5c576a13af0083680271fb291dc18e58d83e0,
  0xe655b8b5fddc5a34f7d9fbdf8b95a36b56f598d27006f48ee3541ff2fd36af27cc87512740b488b0e2f4e9e6198381ca32f02beafcb6163dc7350978124d26ddf2a5a4aa9e04adf88e08961a0e957fbfd641b513cef510fc8875db399fbad5b8c1cc13200929efb68d213abc6f4aee32950135ffbe5b103171908063b997e8ca5f20eeeeb7,
  0xafa0c86a82ac79e53ef1de3a8e58041c8c8225131654c1dcc196fd53a41acf3555e77210df61a9c9add1e7b99723580d98c675df7cd70eadf32fee2ca0b78690ef7d17bac740a834a42480931eed4c3c8126f847a92105e8cd68b238446af5016712310b66cfba50cc572075c05909385d6cc38df55f2e79356dbb6b99162d8ea49ef1d8e9]

/-- fsb/src/pi.bin, bytes 255360-272383 -/
def piRows15 : List Nat := [
  0x9e2e31c9f10ae24554d71c7ee1b19327f8c94c6d481a8b46dfcb69c866d07b9c16e29d17bf89f4b21920fb6902539ec417939492a17fb6a2385073cb7bb467e04c7ed9f0a25c9b4bc19078647d60e1e35cd2051e6becbed8be26774cd8fc7df6cab15c3c13dcd569919a02f0aa4980eb2fa06add42fbcca23604d0337e987969da77acaa83,
  0x797267f09151628049d0af90c5bba68da2f73a8a514e8d1212dadcd885aa2249a442539433fc102eb44300f80ea2183b1ccb2474943418dc8d1fcf7057417ac8ddac2da183b9d75b001bbfe9a67d1c62e4d3dcf99ff47f9e4f687194c0413761e203c3b4f0f8041ad031760c87dc7ff4258de9926d46b6ad2a2d0fa31a3edff4f0ad466e2d,
  0x0c8cfb5f13407444691dbf8f55b4dd2832716d5f4cac34e02f095f9af4e66f5a40a99741c343784f362a69fd75ef302544dee8d18b78a3bfc67bf71eca61db0adc6395b05b3712dd2e6745b173f166fe98ccf6f25c64b86c6a6e7f18a892e23ce528f556fb3362ef005b5eb22431112e9fedd59921d411167c2ea65ba0c31aa960b2bd2f5e,
  0xde0be17531cf5cee96a085b72caf5ed3382fbfb99c480d71d64bf4be21245c0c75378cc965cbe00b19270f127c689d2d2b506e9d580db36de0316f81812ee4167bc51901531dc6465022430dff0bbe88741cbec887b51d9d31e0f6864094c7388eed7bb8d75bddb4634219103f1dbbe45ca275690ea43ef62e30d4fe7f4fa5de2cb296bbc2,
  0xbd95590918a165cc109cbec91416b40fc33252b71260fc53002779625cd1f78a55aaefb7552f5cc35a84ed74604319a8010e9e11e4743884f7aaaa078700a7d1c4aae584d4eb463cd3029cd8506de6c0a26cfba4f6dbc1453d655fae439cd7c34e298152b89758d3a8a8676235e99e17f716c258e2800e5012a722db0bb289c5ad68d7502a,
  0x678cfae487c5399a1524cdc55efe084755eb56f56bb514d144e5debdcd97dadad8418bc01b308d1c3bb12d5f34694f1170d790a7246eecd8d29a8fa069b8fbd02440898279f16aaf7fcb47a5f393e7a9c8cb19094b2df64de031249c98cfd7e411cb1a62d6d64e82009ee3e08680de347af7abf44fc0de0236df5b3b0f4167da0829ccfa5d,
  0x7847ddf14af58d4fd2f6d5972e39ce1bc3880f29d41a3ecefdf7f0b7e3d8f1068fad3082002d3556cf7a6371a0faf30e026a8e64b71f0f1565819c6a5ba1e22adb752080ca6596b17eda095bed6c5e894742ee9e98dd22705b6f07015ab42ce7897466d60a026b447c4e9fad5986d88f7349a052aa61dba50b2787453c3711947037c168e5,
  0x6b5173af9f06cd469ecc7eb7fcfaad19f1c9b3b7b89d148f24271596f7e379d048deb0441534962322b8c7fcfa0828a77e7aa99a6c076b2aa29e59be9fed30bff26f347d877e2077e8733da0c0fe6b6695dd071105f3074b2b0377c2fdef3ea58c7e8550e9055e382df1b4509ff90f67470407737567b256cfef64a46b2d5e4f214c3410a2,
  0xe08887c30229a8b6a460c473c19504a22ba621e2de08d88e9132879f2e666f5cc6f21e15781b91622c8d75c81ce7565a65d887fb144677ac8efe6fea3a0ca4599668544cf2605796a90c8375b8cbad3ac31fe97b21613ab36582c9dded4d72987f296e965b53c1e884e6ad6f630c2f946b6d0e5f2d9f0949a615a704a527ec39438bea97b8,
  0xf926017e1d67713bb02fa11e2b47b804c5ddd64b0ca42ecafa529ab6fa423c064439cd2682d9a59c2df2970c522fc4a1c3ec08e174fb552c83809e554a077c394af73fce140a74def108a5e374da3f0ee717e531ea4b377b0602ee79952a92a25274f2e89ab4dbe4150880a99cbac79bff8a2f34397ef47aab8303ddcd853a20a8d10b5e26,
  0x5f23db383330503a853a5788a59fb851a1c5d50b2c6516b59b3982955ba84096a7844d157b1f8aa6f9c5a91d723776aa82d6b28a52f43c89d462a513f35812f588890b9c21a6c3d99bb7c36e436ef1535e77b62b62356b03165138dcd2962996f99e90631f152dfb846db32fcdb5a5be4c9eb9bd9c58fb29b08e6544bee286a513c8a40600,
  0x6cd56cddbb49f4f19f1d9c24c45217b3eb341a6a880733cd358ef5e6d84d8b1672aa756d6cc252ea36686990a6ef3c8d8a0f22d07f0d41067006774d7d0517a9a76e3f5401210b30edb2ecec08cbdbe0d35c71761354289fa106875c2153897550ef351124310c5ec551177fe329640e5d24f75858c55dc40f9b9b839e44e7df1c5f219783,
  0xbc29ada6c8ef502ae73a2ac81516afae1357b6908b8f56044bc83e8232ecaf4c050395a05373413b6daf39a58ddc4f8ebcb29895518d1b49c39b04d95472e80bcc0e285f0165d33be6dfa77f13b900b30eb48b3cff257fc9db6e41286d6800db60cabbb3bc1f1cd8e14e62fc7b62ad9fb76e6aee37c8a0d6557162ddbb982519d31a8a4b1f,
  0x6b960b0b88a0229e62f0c95365cc80f18e9fa34cb3832f6c94970c69a3206eed14c74d3ab6843285ebf9dc5fef651fa25d59fef8d44cff0bd88fbd394cb8d10638c42c3edc5d4f15b8cd33e0abf55b8aa5158c43e4905a1767a2d3cfe23f8efce4674ff59dd1b1aebb9ba17b9161ddc5f576bad1cb992ed611ab90609a635511354aaa6936,
  0x45b58f4c0993edabfb007abef9af971f647f6c4114fff44a220cd85d56df2568d09946facdedcf81561511a0b108ff3b7fff65da65a2789684241691113b5c29886910d115b0b1b800dd69d58a7c66d4effad7d044f1786cd57abea354e17fe22c4d874bf4b3fda9eacb5d814e409afa97b951dd6b3171f11d976042cc501833e587353d26,
  0x4de7d54e3c6326f68755f994d3223cb761b76bda5e995fe2830ff7867610f53ca333d266bc4bfe518d96e6e6966883fb791ca7c9f8fb2b744cc68eae8693f3a6d2e07cb459053ec23c0113e84b741482aee22fb9dca18df683f09c47b481c1bbc1a7f89448e0e612d7b1abc67736f1694d5821706a5dd5f3b303d7e72ca442510254cdec24,
  0xdd71ad90a998ea693fdab2dcbc5a694a5fce87c4af0c1d566db982209c3ddde9b45b8b6b5650c4e9d094142f7a30c682fa9f5a73eb3d7e78ad290590436edcaddc7caeee950b13514d4a4a07b611e7526e6b664da03c9a991091ef1b44bdca46f21d3f7a9637c06afcbc3cd658f7c0f092ca62fca1d9974b3285da121814b9936b74d38c3d,
  0xdfd42d155904cba501f4a31627f5e0bdccb2686560f1574d5dddfbe52072699f696e8a7508f0cc6397a5d1b5b726c5c381a3a06fa4f721a72290cac2162fe2f2eda5a0b69e0cd49fe01d3d124e7b70725e858afc85e620ee6fc9d7b5b1807e1a5957ebe4adc2641d956e1a3dcf2b4cbd4110fdd85b5ad8a9a8790dd8b6f3ed605483783587,
  0xb646b65235bb523b79e19567cd690c3105a32991a7f85618b584c1277b805b108a74dfc369898f17b38ee1dcf70bb71e7a61ad211b48653e9d77fa82df5cb3424e08e413186ebdd139794666dd4d72f2fa762c4283e994f86555f48157922d0e52be880cc1ebd333bcfe5bc1fbe1bd67c1d1b4bb8f7323d1a72811974d05eff7bc399e4583,
  0x4c8d31fb2d33b1bb3740c74f12cc8c31be1e0c283a72482bb3398b46a5fc9352613dd8fe20f3979e2185f177fc21cca168d7da09c9f178bb8719cd892a5f7ca2d0195d984554a62bb829c2ccd71a5cb47a17e820b1e8d7baf1dae363c94f49d94bd31cbd2f3cf3ac65cbe86d34b332b53c0e3e051c1f16f04923d707fc371ec1a6622a30b8,
  0xcdbdfbc0f4190a7621d58fd223aea991f3c476ab973d610cc458df62bb5800c1b997c1b06bdb577b555bd376d5275e859e8e4cbdebef3b797f5d2fea00346496416aa25605e7db3e3916222cf00af61160175a492037c96bbc975954008fc32264f315aab004ba8068290da67d6d45bdc7e43d4603a084fb76941f29f9a3c9ab79dc34c662,
  0x749857425d4d2bc5577565564c96b191a4c1b6b7beea92178f0c0c2ef900b7188f02d04d685974708e79654cedc07103960a93998ce334bd0cd5559ebdba012d7594a53b0efdb137810c149d867c373cc2e776d5055e4533d0171e7f8f644875042fbe0314a2115ce64a1e09554ce44337d0daf997b7156374356251bce61c6aa7ed056fcf,
  0x5db439ce68bae35a85f86e43e612227caeb75ad91f0887ab843c2c3b57532d7ae2a2339a3105ab9577a6df21944ae54bffc943bfe26a238122056dd650b5611bcc3abe612082f186baa9d14017a7e0557859c5fde2eeb8ce679b8466da025acc7757c3d903f2bfa25f693a9a7ebfa34a39388acfe77310c8c9d1b2562a24871ef883e63ff8,
  0xddcd67033baef1aa374f3356d10802b76bcb75bf3cd04b75f8934810252b13d93ce1d0174a94d46a3eec10bcaff369802955d0c61d770515f4778d6a4e5b414ccf1d67af2ee247dd37ff8062c8d1e1f451d68607eefb7d4d4d0e35067da95fc6f0d2c99f4ab12146fc5eb01889c7bcfc22cefb20a6e5196bc40881fd437be90a3ed64129ee,
  0x6943e2330fbd4ce3ca02a48557075a0237f4acafbe9e8e37e8e19abb1547b9466ea2bf68ef519a8cb3a4b1a1f95ce7edd068a08427419ac578063cf46b867e828ca32ec640583f3b6022d925a51845f95f48290ab0f5485870fb90520bd45d94368a8af47ee1ab61a869e8b6152b4c13180e723c5b32f57ca6b2fbab5358379b3fed3ea675,
  0x205323563cc5aec0499c3356d4e513a569593eaa4f1e9be75ca9b259ae3a36fd48ade811c7f5cadd847ce189f87c4da7215808a2b4817b5b991e7308ed663932b291692f6c304649fbe5e4dbb127480e156d066f8513eee96860001fb93e4c8c5fffd43873af3db79336c5619dacda9cf4f24d2e269456f174b8346da536013013137f84bb,
  0x46de4d93c8164702c31ea4450032a20b3258f0d9e47e7c3f55433514739e832bce0f4fd5f9ea42033c7d3825504032bf352115234d245891a406079ddde150f0a1ce675c374b6382eababdec92276dd59e7d322302c2e0945a3cb6901737c3fed07c66d7f0fce5be0c70b210c67bdfdce59d4d54b82e96e26bb530abf0049962673ca402cc,
  0x54c00475fbde12383b23e71c0b54b435d0f0c1d97ad5a05cf6d79f3adbcf5b197baa8f8a45e77afdfd6ba4a64298edb5d1d87ef14e61c362c23fa98c4c0c1e68d8867e74abee604cd8370f57c0659ded93cfd656a64391b5fbd7eb166651127badc708a2bcae106c8854c380157517cbeea07ffff728a191521aa6123d098a9d745aa5aa86,
  0x1eec9cae9f66a50d8c322400eaa98509cc25b7a5dc7a4247c076aaecf8c655b7c18aebde356a4dd7f2990a44532d763b89840bb7bb2577c4b56a792d04676524a736177f043498d5a40129ff4a994c954091136d04671ea4def35b0dadba5d9b3fb8ff9c17adcb494ba4c18e97f32d84c8bc6b445fa78f4d059147371e6527118187296b61,
  0x8b20be99080a1ebb5ed2248d586933be2ba420dffb893d78b284a08f9e4db3f60cac84692e50618b9286de58b39be48e7bac8c3bd44467833be91fd07926a98b6ba380abee4395a6103fe0d8738a526d4a45c59f90a55727bf87f739da746856b2bc8405dc8aaef335147aa717443683b4c2a93399a38dace0100f126898c3f7a6db6a3903,
  0x36ba56e84685d388290cc1282c07fb9e758818b5e363121d585e05ea4fbb8c55504eb86daf9a6aaf845e15014900e7afce1b465521f3852eb4141a14cdb945584eec0af4576770d34226218c7fa5f0a7d31794a4a266625312c99c348d90fb61064e8b496ea1c434ca211931e5b24726c58442f11750e0c4389643fef3628e8c430e291e3c,
  0xfe4da9537fa52e1e1cef02e46a698174b0c09fc8cbe51c5f28993a426c89d9caef3200a1a21a8c7da00a1ce4945b8cc1d0d19770d9a1bb89309d9d781f0028b234f3553d10a187b123d349369083058cd04718b0b149062f9336b93cc1687738777b1d228fc0dc7fcde5688a75be5e58a8dd1e6d0ceff3f1a2683671ff250a4986c98ba093,
  0xd733e116115db0a30fe53a90596c5dab229d087864bd2ef31e7129961bad86d93c07ca8f31776b36d902a5d6644d4efbe54b6824499db102edc8e134fbe0a2fbbf53553a5ddf194d7fb9cda4a363402625d96772e5d5e8d15997529fd8be9fcb2314c91bdf73283150176a972dde3a7cb8f04fdc0469023200cda216c83068a865877f006f,
  0x7fdb755fd3b5c5f5917e1e68aa461807baa381cac557db968cb9394801f1aa34b33b87e7e13ebd5a573afc76448727b4372125cfd0243fdb19f7ad59a0b7aa73d5a6589c7fabbf596c2b354e611df27874a1dc2c34dce28a593cb956909627ba579ca96457bd80d898b87274b625f2ef71a37ce6df4089566f21b17ab53ea495b3e2b27ed6,
  0xdaa83e730caeb87dfa1b9e49ee6fab03a61984c3a5147451e2cdd110a92f481f8deb1f7e963778a37124bccebbb8b759a1ee9fce57a8dd9d39db04cf3d6188c19a05d9ee2610cd3f2cfe1b158d1769c489538739a998b365b9182f29ed89902b47058973a35cb688277bf3faccba1dd8cb223de4b21416fe40429b0ae060d50121743b78f5,
  0x7f25a746fde8a14d3b67e1a00f41ef90928a1c705bf793ad7670211a0451362c508201812af24571b8b59ac8736ade69dc644f062f5417a7325107dabbcc940abb3348e76ed4a9d96c0a4cb3ba1b8e63381750ceab4eba60950374900d83e5e73a78ab2a3bb02e61652aa4597d108d7cf04cf44c85e0bca4be60b789cae1b85d82f05f8aaa,
  0x406d5fc0a149e0ecb00a0739a66efbcbf0c51f35f230b7f6164a0199ab2c7e8ae41f0471440ce2593987421b8c22ec4976eaa3351247a4d27be69f70513375af1ce8888849c8a93d8aaedb1e3e589396f727e1a83edcc945c3e9aae4b5840005688397b272fd7cdcdbb04b39ca0b3eb813ce8fea63cad6f22a65e4d88dd7bb59f810f2cf9c,
  0x1d3f7028c33e700c7799edf721281f1f2d01cea47cbf3441e54ffcf49298123ebd7c78df822cd45a93227fb3d574d280d1ccb5845a7423e94cf3dfd27ff1fe5b78d76bd3fbd6601d7d671461c6e3c19563e414661284bec34591e85d230fae91be6c0363c78dbc52c99cb24ea716c45bb5366ec6362aae220df4aec1c863df3667139abb67,
  0x5672414e692175e2def91e04bd2968b28351233aa14368aeaea2fb60d4fa37d14a10e094f945246bb50619809a39fdc5f5ec40f4a23e7c8873dba882e209bbe2d05072292a0954efa9c29af6c87d3926a1779b03ac1c10c0f49e6e87e5bae44e6bd9ce36a11f3234e850b0d5b7c702550da6235816e0ee8bd0ce5bf68b05a21cd115e8d087,
  0x31599db4df12bd910043ae6ad08e484501a2db1a3f3f8e8c042d0545f7f24eeab99e316776947f1adf1d1921b13b7551c5a0c90c7802f4265ac03b7c5ac4a32f545d2853ada5609d72b7c643ab0e330cf823357c004f569c3f57a4a25a6cefc8587f5234274a52ef8ca27df71fc69da5506a7e04212d8996d5752b2a4fe0b6a566b0167f70,
  0x61b6572710496bf329bc775f85177e56ca7a5e2413a0f271d2153c77dd017f95eed8d6644a8a44170963292604c008a3dcb6b706241fe8793fde87d158abbb7ddab876aca43c8b36fd3b32dc34d7cdda74c2b50a826e09c0ef9c2c0e6532a8240796bdbf2fbd559709aba32c007b3e2f126305e78eddf1447e2be0359d1c7f65845187f5f3,
  0x5d391c41ed561c306cf3427f04b2a9e6aec17cd22277c258b49f517e876441d168f6eda1c397759a4a49620ad4ebc1380a8c7bef6c5f154fbc5ac2dc2881a9f8bd53d04c6d70c612b3e8382c55c40ce1d3080453aa6e1d1ae28afacab71287a203c91c29081d2274f9de81d6dd97b96b4b4bd470d33d50c03afb0b3b40273fc5aea0593d5f,
  0xec4ec81c9285e55b31ce9790ef61453e483f6b7b2e6019d22f12ffa1be5f2e34e0ae5beab332886643d94e0409f2f80e5dc7db88cac93b71b3aae3f1970fd957b98aea5ee3bb532efe0856fd34f5efff11b36b625090ad15446326455abb35499196e27fd3974e2e381e0d736ece67e4bb9697923960a7e85fcb44e4097d6e957493a50808,
  0x3a31cd164f82abe1ef446633a48067a68ec331a9881edfe9ea4edc5d11183c49a2ab36f2edb59929e0e94b36f3f9e273ae93e2c937cefaa730fa50a9e3f600d3fe1c21335fa25b1240586cdd008b88f3bb5980c3701a0b6dca3642a3be0d9030e39842273307bf247399f53cda44e5ddfb4898123bb19958db5fd3d237a3d590772271ef5d,
  0x289adb6f620822cc509cfd4c8651e5ba03fb3d6c30c825160482491292712566d360e83616a95f148101c4d2176d175402f4d08d1ed80bac039d74565a7a0f865ed03e9bab7ce01be43a06f6d4437ae2de90c21dd3cfca816cd3a1c4165ffd8e0d7a037fa39256f3b409fb483ab340c3c493c497df7d6bdd32a386ec7c6a773826f58cf73a,
  0x105abfad0930eb0b36b16edb3939aaefe6aec648b8dd7167eb2cd970eba4b66556204b92587b0299899d462c73866180f80887a3add88743457ae48d8b70f391a8d985a15e246fc231fd7f88e698a46ed280122c40c69c99ab1273b3f80c5eb230d5cdf3c93afeab1d740e6612cdb2ca812f2dc4d36a8ba2818c9edbb9dc94f83439393fe1,
  0xaf2247c807ba9f0b9d4e301c06ccb2a8ca8da522a12184bf3233933d2e0defde4f92ab2596b62af5a6f9b5efc611acc70756dc03407525bb2eff4f53b17be909c18faf55ceac55888ce9614a82777b8749e53a58ae70b1c43263b684132671842779e5b04c7b261f89af49bf6b44e54eb30eb259ce868b8bc8bed3eb5f1120363be4fd636a,
  0x88a5032c4169e3f37dd3f2ba4f7212181deab65e3b0f3a181cae1d03fec153964da8dd3d331a7be116906e18415d6de34bf8f62c870706fe4d0b91e4be445aed8b6c8a0dc6c5f057b740c426b19b6fa6ce8d946f6e73157f04dbada1598af572dde226c69a4a608c83dd5a39a041cecfbc270ab17509ea8f5f7b3621cf380736c48344447d,
  0xd97c26f894d4759f6da24b840d7941b127568d4aba7329b66b7dd8ad39e138d461a43041aea538c7ba8af41ee3441b3548318396b645fa1e45cde49719aa3682912230a2e3ee8492c51db37929a6d69e865b77ecbe6cc2d1ba1e5b7c0a4576e6cecd72cac96aed0ea92f6ce1cb6d5ccb980480c881e28371d8376861b4e0fa020d5dff715d,
  0x3386c0f17c2afaacdbe36a01e2e827c4fc9d4fe36d80351718faa8216be6e2a7146256f6d8adc286c2f215cf5903174f387644151aa0e7741c1075d15aa5e6e787369a4bbc57c1bcaa869b89175724ea8a551cacab8083e38654208554911cc1e32a227a533e85ec899d59ba7a5cdc1c5b92ba55b3c169ce705ca884b1b112a44ed90df839,
  0x7f9f6468a1a7cd8883c6a4924ac4109bb60174e9d88658d5e98dc7e854b57f28086e9f131fdfc8dc6496123d05a4014b89cde23d1fefd3b5a608491e60fe0d6fe86c9e90f9ea467db3ffd1eb5423cda97059852ddb5afe8155641a37cf7034a634391817352909d855a50e6aa7457570d29294a1966fc2d93e4003436b17735e2c1098a4ea,
  0x37fccbcb0b769f8786550ad52da6e2e14c71ade5e338a6c4692694ad217296555492d75612c2b9c928e78c1e50d7c1f5e456d9ae76b6185be91c8f553c20198ed3e87b89b7bda399356c2fc7c06c3e590e80eaf59e96d671267d7d7584d28d19c40a70beabecce936f935c7a6500bb05de9a67d46e9ad13ac5e0fd2b89cf1793664a0797b4,
  0xcfb458a229a1b99a92acf204e5cfee4d4ceb254f66ab1d8ccab05c93fe1b764f082b1e2bfa9bc5da30da3f6ad066312c48c6f4efd78ab199d405a10b26543843ce95d3e524f5a19a2fa0235c79595e376c89bb5ceee5ef48e005af30ef9f26d58c62a7aa8cd3af024d3a819147ae2f924b50c6baa32b3a1300ebca040ebcab9f82807ad05f,
  0xbb0df21052aef759f31da07c7a3978c8f8075e5806d1a8ef9441c3a282eb8b69479d0aae890167f74faf1dd3b19dc5ff7a2f030502b89e52f3d5b764b79f2c4a70a18e496ab20ca965a9267106e4ba3232af52ac72b34e946f37fa63a552a4525024b16a6722fbfa6cb203f017c314dbbd276935470a76e762615e37fe9dc934e42697d827,
  0x845966ec77c8a480de9ae96630be53ccfe314e62a438cc1ecf303b9df3533ee5faf7c404c4fcaf54ccd4939037ad9482ced512a4850d926f1df53aaa61d2264c4cde38dc5bdadf708a02c5ce036a0c87aeab06970435586541623275f3eafa30651d0fcb8bbc1df1a27ab787a373d6c97a7b819c82c673b5a6f395b87149a60487f3ed15e9,
  0xe0f91e4d3e8518ef0a8927e9e866e0a652797aee6679d81f747bede09b4fe8e7216e7e7f820eaea2e59c7e6907f72831c1af203e014b63c89bcfcf9091b3364fac79f62b0a3ba4634c3818f59eadb34b614245604c044161e60c945e1a4236222908423684aa4833be6ae13354a44a060e4ea6c258deb836cbdcb5f395a12409f4dff3adbb,
  0x3c669eaf29fc86a1f9a0d87825e0eae0a3cab582367df1981070ce427f43c9a48545b8572f89a7136cdbf40c58286a9034cbbca1b98b8cbf554e5f725486f61cdc7564f182afdffc0abfc4e687e0d1ee57ab69412b7767660de9c2e7947b97d0d1b52ad9c8828476bd0e6a26b06f43124b8b8358aebc171f4201e2344a697df68542ca4eaa,
  0xe0c41e5eef03cced5fde93ffbe129e551488afb009750839cd0d35ec34d864fd2f88d98c0a905550f1a336d899ab4fbb4c918509b5315aef783255b1cc0e0ca6ebb03bd83e4ef4a819d5776a17d8188374612808e7511f0e71030a0e8af4ec0db27b8b04aeecbe0f85709a2e4bac369e0092305c8359a055e93153f184239f4e99b0a28c8f,
  0x7e943a9182249b737d1efeb8e1db72873639c64432d78c9adcb959dfa201fca9abb2b65a55dbb7c9dd30c7bde9510c0d06edecd6036e9abc25a0ffb19361d1f9c68879be22ec525fa66abb29d731928231626be6e039467b08f3ede2e36545aba49e5efd7869952bcc59e8ff38958a2af312c373e9601d19abb6e829e031ae633fb7023273,
  0x13b8ee142a44f2b1acdeebb8ba4cf88149d849f034b57a94313721ceca0fc63fa53afbe01ab452b8d940fc9861ab363c2db77f6f77e470c1677ffa940143abc3b3cad40752ad05162bf4d4165a79cfee3dccfac347a95f75479d1a80ef9a9185d66fd5f15255f1e2b6aa3a463cda61cb0ae9fe65178af9797f7045dab1005e2958d8ccce29,
  0xe38476e0cd214b8ea4519fbefacf4fe0dfa62f107e367636c47bb5a8c3da254daeed890eff66bfc3df25d302a745f94fc5dcb4831e2164d99a166405e323c1cf2287cf1ebe1a92edb4a1d89d6a1dfc8d4840421ab1fe005c6f552979ba551a11a22089c63b8ba316f8398463e3d372c6a201f3ef33e9e5ccce2a8d3fed575fa6e81ab64978,
  0x1dac745ba2e4b3d128a9d382fc49f926a97e07beb94c6e733edc6acfccd51bd6282684fc0de6eb7a6bd8de53902545b4a02131bd3c7e030266b11473c45918c2a20b4b3c90873d8d8ef7a2221dd7b09b6c9e2447cc5bdfed95c8a802d8e5abe45c1d50aaece97160655683a0a5db52b1b040104969c78a35113bce9250ad0c6970dfed9736,
  0x284cab8646bb520a9510c627e163c11fab3eb20a5576a1c77834413955662cbd85922d5def0eba17885ea19cb89e55574b55e7e54f521e5baf30c3dc6da4ebc0f13a3f28de9d25995b80901523ee80003a521e275336f7f23655fdcdb6fcdcee384e7e5a29ab0ae2cd1c70acea4f914c8d0ea2efd70829c1e659895b6170070a4499c194c4,
  0x8e224f2fa61751e2c3acf54f296bd0044acb6f9beb343c6945040342ee00c552edcb9f63cc5fd2f91dc3ec11f0c2541fbc91805c6ff6e8cdc7bf298546f4aaac4c8229c25109524635c92017f456ba63f898942230fb15e4f3a44b090d194a64f4eb7b57597e8e09a41b32262f5e57363f4afa4d109b5aec02534e38be06a57c00666e2be4,
  0x0b5d7460e611f233048e212bc683c72946c2f3be264fe3790082ac6ee2183608f051bd418cd3d84d15b3ca57496c659b8574f4cfedb5981100510ef0a12ecf378109db37a8efc1dffcd8244199a053126c0834ad5ff4357b27f7e2344bddf6b3b6b8b15ada593d352fc28871de68984f0f2f8ca74d20f8160aff4391c7e31251a6ac9b4641,
  0x6bf845ea9ac614a6ed4490e56f529cd7c81c7d2b06e7f0681cc7892f38fc514c9fec2c3edc403def394276ea352d15871893dc863a52ed20be8519bd4e3b325c99718ee7cc834debb8afb475188e9ba423ff84a5795e969478471d0bd87f2e296f41f1e2bf108ea563ad79c2a7484cfea0c53ed0ee290c1b8b2c1b869d896cf8c5fba42d8a,
  0x123fbd3aaa663fb4ec42f90279d8ad4bb3fdf7f9647a8d0e1c73bb844ac95c02bc59b88d285997f3017edc5d406c82f6d9cabc2a4a2cbcacf33bfad62683d9ac2ac46bfa0dcc3a0a6eb0c1a64385e786410651d096ebc56012af52bb5c2673a9cf9b7178081ab21b93326aae813aa7257ea0ea521cc87b9339e9e9ce017c894aad28ba37f5,
  0x79e89fd769fe83902bf614f5bc99837ed6d7865755eba83f1ae27dee3da83601b0e1f4a308315d2a6b4552d4a09d29970b9c353cb7ba66ba066c9ecdbe0e8039c8ffd40629b24cf7fb6109f8b2a8b6948bc52ad677fc4132ec2ac6bb5dbac594c27d667205697dcf480cffe37bf1c59b8ad73ac2446a2505d5d8e29e7dd249880c4d697234,
  0x8277304f71ca4826367e4e98f1517984b481ae4f9febaeaed40591e9ee98bbf2db03cfa0c647371e133b9de5d35570017de823ef734f4e0617ed36ee9869a7634592355214712abde6accf0ce61269eef7176dd9351105ff95a55254de14185efc434a74f776a2c3a5d33d6c8021d2bf011b6e85abfbaad307f202860eb27bb976ec7b86dc,
  0x8dd0fd390e929dca01477c9dbb1782e4fec8e3bb45a25dabc1d210a752218bd14a4b122710d2ffabe0eee259adc1d5f7482ab90ce68c6745e00a0b5d238e4fb8d36b770060a9ef1ddb56f513c8d5d6cc6c9ecf400b9fb4b69f56ae5a46660625e48f33a68cf5f2b0e91e46b492eae0899f6ae4cf489181aaa9cbbd8cfe878bce54aeb97646,
  0xe43f6476562adfdac3acdb00ef83cbdd10e4df66187966be7517dfd5ea3018e326706806ae7aa2934b766972d32cb2876e9cd21275fcb65bae726bfd266fa47a035eddb0e697a54c9ad5389e66af435b5a16630c16f764e7cb7f6d6ee9c5b9668a13c6342b48533e49f5dfc1f83c57f89ff8d340a2b6f01a9ee5a7e1a144140e4219a4436f,
  0x3290c940884cb96fc97cc179c37e430cc71cce296f5e301950f2b76ea586de295a8e5be6cfbb7444b96acaaa2cde66dcd9dfd3ef084d66cd477654f12308f5c88bfc324c96db76f4dd550c6a4fa3877ee919908618613612190c153b439b9b08426417d1260456f2622c0a9858f2a493271f67d06de8a0f26b0fbccc53f51def5448684612,
  0x5e0d724527a22fa3de4a9d441c69fc6637f93a6003863ba6418ab4d5339ddf17a7fb72d133ff477574c88bda8d68d6bd0273789e885a96d17784e78eb1b1af0901922138a98aae98a1fd73efabbc876b02624bf1a91d8913b8732268f58dd0557dbb8d5962ee0b7ed7c9b0af7a5934b7da18b324991632ae7cba8772ff3610029f9554ca68,
  0xfb107e649ce3cbd5eb42bc5cfff05c643cc5a08ce27cd463e7652d7b2c51d8eca94a1bc702cab2fac634ec135c07100925dc13962f12aab9412c6314083f07650b75b4894e091bd462ea1275f214ee661867f4b80a08101597dd47834e241abf8ae13d335959b62a89ff4d662c4fbf4a9d07b7045d97c1c0448ea803e088fe2232b672c0bf,
  0x78a32f90e8efe0ebafbb869551aa470ae56135b19961d881402ec1ecd4968c66a033428ac07f5054bc4e065bda60595b0be5c341b20a5cc5f3a9a8e62cfae11de7f44265ddfa9ab3f1167a135597fa129d987f268873e753bc32f40ba8aa233f4109e0d6138377bcd92e703c39a54a2f2061d1d68c594c5c0f8554f3f119a509063d93b079,
  0x170c9ccdfc8485203456db10d10ce87323da9cf623a436582affe4cc01c9ac805f748a50307609405a5b4592ee123e6f3ceca55ab81eb2913a3f29e80f054dfc576864a15316822a77c9cc189567e55e5884d0dbd7966bd636b57a8d08aa952b79958ee6fce9b3a5105c4ba1d2b1a37a1ca7ae493771a7ac6bf49b4390c7a4d5de88da7602,
  0xdedd78564363336f4a0430edc690466d9b16c03b6deaad881e7e52f9129eaf471597651114c28c5806085ee7327307ed8b8cb197bf17957fe4ed38ac326b7159a3a64a2c7025ade67a7dd6842da608549737cff0441e1b5746e8cef5ac00145cecf0c875f532a20fca40285573895c8576619169bd39af004a626e9d5550931e3f2f585eb9,
  0x9d366d946844382bb342e70c71a3eea9adc4ad54b521350c770762005ded9fbc9c271b6c0c481100f4a7577ec198e6dd8a88a2b5fd6b52028104c6eb0c84337b55d4175dd0db5fcaf141c93736dd6db6b206f5cfd89563980798dd22e047e79c9f143e737e212babde5ae96e4f2b09de97c9c10c068d22f2bfd210e53af913dee674fd6eb1,
  0x2e1ea1f0162c2d66531f02e8afcc27e3291d257d7c64763069ea7cb8806be41d0ebf14799fc114abcc00b20f8f35aee7211c47f25f7e605979890e2276abab8c52c4d6ce8fbfd9a7b973b5802594791e6f99d4ff1382e41b484230537d7d6e81ed32edcdd67e5e09890e1380520324abb26dd4378d1c1a7f0a867d0d1850741e01711ceb74,
  0xd8396b0a5c265449cdf4b2bc971777149b18e44993cf27549ba0ab6e69c3dbdfd64eaa54995b5e7414554533d93a3256acc9d21701dde8fff31f4c741015d06e16430144fedad96636946d1dbbdeba28db414244b2c3e0722a4b9915f5ec64789d97db35f984b8973d08e0c54fd375a3c920fe2e2f4540fa0b09783b5e2d4c4e1636612856,
  0x33cb1b53ded322b74b638a831a052025139afd4a6bad370220daa53d054613464dfac622feea670205faaff4df640ef6b868cb695894ae37232ff6b3ad10cd2ab7e5d187b7cdd81365772bf441d1dbca025adcdfb735fd70cc9704f22a0a9ea0c6b37cbe37588746ff884f227a913ccd3955a239f32b87bbf46b1e99221e06c062fa6b15d8,
  0x23be5698de23ebc84435c7abd1517c7e9191323813a4b80f2da4757582eb31f254f45c2cca22a3de7e56bc6594db85f883503f6c415aba83a99b902a914b72d21e33e81d034d7a728347b20a06ae9d6be0a39a9a995e3eb837ca4abdf316346cc6d2fb47d73107afbaf494885704f3628bc94799323e8508d1cd688ab756897acd83eaeafe,
  0xd584b0e440cd2cf4082f7b4b20373828bde7c1fba02950a286c32cc1f4f3c1f879be6e49b41c269d34034515e1d6af5afcc253cbbd0467b2104b713eb4b164ce11549e99b831e970b94c946a00279cc3164ffd0580c9fd20106850d3a865fd7ef3302dab39e02010f92b6e2faae47e46f7df27e5d5747bfd0d82d46cb7385387b9e6fac8ec,
  0xeafdb51b3e8ca49e28c360370b107c0dcb27f3563f7065012de4043727b3ace3a19f54e9ac9c1f26ff1a8a38debc079d25e33d6a250c031e144e16788697b1df1a93f024e4202946ef5fcf018a0e7fcf5e8ca4652ce8b7282e2c056f98c4e2da376bb2f00f4d5ba396fdd8bfbe95d741d1c5db282c541b1458b61070f754c062f64b19efde,
  0x7f0bc7c0275c02adefe8ae5966a0cce4c72fdb418bda9d636f143161d06734abdf7853867b57bd880ddf12dca6737ac57ccf1ddac8fa8480b44d44f7b1aa96a4cb2cc20d4d09ed55a9d3242de1217f6b6f97e49b33224fb150fb47c44d9903df682faa5fdf8c6644aa78eb50b21f2d058f931f64d2a1df42c0d769f47cc80875cb2d3d5d83,
  0xb48a241ecd0e017d089dd9cb180d31272cccea61d79671d8389df1900e95213dc34c082f777865b0aac8c9e18c3a8c0582293d648464d5a9935574f7329c49deb92ca1c2cae5be8f912afe7adedad16fd7c0845ccc3552588000b1d3d64e92fce319cc374d2d7be3f81e0a81369413f93fea702f0d4c8bbfd05f5216bc75a51bfbbee7ddd4,
  0xbb8182f2e3e515ff7c553e6ff8d2a19e85a30820765e484171cd4268484a7861ce3f3f9092cc420cbd42b36ed588f6421e0a6ad2f0ff6c8925c1a0dc82e15a058f17bf0d9ea1409c7beb23a716a1afba9b18e36f7df84feb0d74fb7b110f4da93d8b37b462b1aa5caced50904cf4633f65cb3a00a9ba9f7c4ccf6d34f95ef77408ee212a0b,
  0x08638af5e0a5e06ddb40a141af0a04a43e7d69befafb913d098c20436856934ef75669d2b83dabd0bd4ae9a6765c597af85ec9f2cf557dd0e09eb88328e11897705f9bf91dba89174bf5dbb4e3d6eba268572288d5a1ce8e3d4df48d8aadea8bdb7a7ead7e592b3334a6ee2d139ffcb3b4b80661d653c406d5de23bce5257c87b2d7305059,
  0x9b04a4e8387f3eca6a10e85f965529f2c092bfeee2f4bb58b03188580239b7996974b8691bd1d6e2473c96db0e9ad11497251d9f6f211d390164d33dcca65c0600dcaa22403d2ec00dc1b69741af1aed5877c3a34d1d3d5e3dabfc0dbcabdf7919a0bee6d1d3f679080355eedfb3923d74be75639da4698989aab5753d8a597aec274f8188,
  0x3b72a2290860d83b4d1538591af5ece06ea758c9aa97a3faf60e8b4689b44acde968620cba7056a4d7df3407e5992ea26b7e274cc50d2cc587329c1c79e1e1d84590927ab1e729c37442c132143c2245036eb1867b55a8c6a83484ac036b00d70e983f2e1bd0dff290a0a5d2c14ea60f70120b833dd4796059b200ca1a498bc45e1bdc76cb,
  0xd9206e0b1eaa2b90db9ccb5179bbf10d6208f34f1645571bc9ad6f5f416e0ed706ff4ca895388886dd31ae154d31253b13cf7154c19a92958918b823a205df6c73d8e957446960542bfd42a58d534cf8c10d7d10df77826cd475e07a0c11860f30b3b9aaf4609f6d0d3028bd607107f3f4d323a9908f4f7a2db710d6ea1cd0f04fa4ad3d6d,
  0x4966098e2adc0521ec8ff5a44aac27594530c48857c59d07884ce720df7104d75f2b54510bf72bc818de9fc7a65e1e0598b5056997ceb60f2a1eea9062da116f64c1593bbcee146f41933ee29ad31b7c84eb3c72c6023345b09b324795ff3563256f421b9945773f1bdd7e9ecdb1469ddf6b4d268bc41e789f2889cb342c4587150c50d188,
  0x024bf461ddd7cf44f33da068db73721a0ce3483c7a2b5863c6eb2ab5d53837c79c0d3f2394db618a3537ec7056ec06646ff4247d5fc958f0fcb442a7d3d6c2f49840720303d51b83ff9f50cb53c6d208b23b4b6a9bb119dd475fd4501904eb0824943a18c8336901d05714cb856bb7d69052394353d2f54ec8926fa4b204d7e856cb41d879,
  0xd7e1a54c1578cd13868ebd8897c9f015afc4537a1021e4b2503ea95571b51fb392f7f88a2059a3c1451306f10ee7c3ccb2e6705e322ada9a8ef6ff533f6e063e10a96149b1871739749763dd60080eb1bf42d68cba0a007f378e1cc2470f10e571fd8a5098b8958eb8795c01c5337f05cf05e07df4d4484758aea42c2b398792ee62cea938,
  0x11d26e7919883a36e0eb6e73a2f6b068bcb0f876de60c9af94d9fe81bee89e5311f6f56c457022462b0e51088bdee17dd53bf7f91d2264ad83a47e1979183221943031c5fb71970c44b5d2df241f84d93903b754de4359653436137f7402a8e616ababae652878794fec2502ab8ea11b7d61bda27ee3723d77dbed5a952d999fa854c11e3f,
  0x8050101232293a08ba713b8f1b429f0ae7845139dcc83d8febd9c974669e97b6d282606e83849e418c09e2ea37d7c055779e4d70c31184098a35460c980c5c69409d055c93b19be8f8dd532261a3dbc94d1a9a69d4e36a7835b4b1e59fb6fa9622e6bebea7a0d7f80898b2884252bb114ac75135a25a3c19e369cceb5b0cbb6ca01302e0f2,
  0x4a94683f9f64542079f1885ca6000187eb5cb172cbd6a98dbb92fa1ca602e2365aa73397aada5954b25b3e8bd1177782f9ceb9ca456bbf2b96499f6534cc658911d4f58a099097881d1139269110519c6ed982896309a33220e1e56fb36ad8a9d83d50593139089ce9b8026b636ed85c1a15b325da62e595b5986740a0ae15791e9448483e,
  0x079f5b43b0b6ac44f79df96a8fd22947408171a7149cce25e6bef09c8967667e5f780c6c2c6430993a85e844472b7a69314c5661c4e4347a869559c22348bfcc102aa218e6421618c50a4bc841be1443cd0e4972a18fbaf821e351a54c1476a465b9e004c38bf3d80d4f906629fae7e5c35fd3900c0df40e46d63459cfad6175b68841695f,
  0x73c94d747914475678a61cb4a64d730c8218cc2bc0f82ac569f576e4aed18e84616e9f57fa2f3403ab2d7ffeebad9bd06e1df14a0712d3ef8e24c3bbd74bee206dbe9c73f2618014dadd67c22ed675010580c14e6fa700c72779785399ae15ad4f3ca8bbc01cee78fc71da2ac391e86bd75cac1cff58f4df6dc685a122839608a579257091,
  0x933a40db1539c5c03116b7bfe38dec91403482f333128cfbfc4022cc7da5c84d685d0fc6b212b0004a8673671f574cc1c307e6cc78f07e70c349172a5d9cf092bab13c3a4bf4d1703c8da991b696dcdaf3c0e339d257a9b535944307ff517b33ac2fd0756e555cf7941124ecbb5ca7766edd399e606bb913b71b01a09089fed1c104d5c99d,
  0xb0b1dc68c9e9a53f7e0b542cc69d4b46443579833fdc820815c3a1e9aed81805ea250d8349c4e6bfddbd23bf168a7d9b2b577adac81b8c73f05921584737059da5868868fa9fb577d1053c7bd7921c23617a0c6c3f613b7c916899d2bb1d0e13c6c0a93cc162234174ff7c133fc8a0f20f7e390a7b5e3b27c07807a4ee40748626a9214294,
  0x4a422d556b6ae60a621627daef0a62ee7fa8b2e6d80bc78cde54f7cdd0f4692163f0d30b5a0933018d21477b1032c4462ed7caee9b95d35129d819fb3f4f83cde8f0fb3229896367eeb48cede9a2fb534610569cb32b992dbeed50377224c4597e7057fabc784a698088822f4a15acc79f6f625273015729092968c0c8535d098791037dfb,
  0x16121b6ab4971f898e46b37b0369cb7559838eea883b024f7f17ec1991a88ed55fe5179158434bf7c786e8702e0929e713f06adfaa6f2ecab80a86bc5d6278bfcae98dc370c641ec16e829473d788acd2be36d0c1868dd67408c3e49c1fb895a9cf22c41d43fc0f0e3e89e7aa1e924c3749d8b1fd3dc6d161d9cd1855095f5850d67d24b24,
  0xef43dbd8761db38728cd0bc0dcb36183f524a192cba90d481425581637a1688f82f3b0ca6c10b07f45ffaa73043e4f378f9d6c072918c9bf890808a30baf4fa2f7b98c6c5d55b3cd1587b0e874d17e7c01d1d8d75b247ff0b5dd4ba1c80beae4a4cf9cfc62c092652a84edb0af628fe3441834945084ea0f79d657eae4ccc8f7e4c7085bab,
  0x746c36b65ce772a6f423a6939c3f876c3678ba148705e1adb9baf1fb20ee0aea11d134a1b491da53a913207071fda66782f8871517ec7a8f64c9bb041d0d728659ff9cfae64488da132af2f2abe71a1d3b88e9200873aaf7236bc4b944afb03cfff55deb49b584a8d9c3823b74933c8d63b5bf5bfd0d21e13eaf9a2add27857d2014184563,
  0xc2840a2dc70b66a46487f21558621c2e5b5ffc6044223c0f4cfe3ce07f1e5416efa11ffdb3f6e74aaa624e82e62ec2d88679df24e3fc21d81358722ce7e6a70a6a81e4dc83ba8dcf11e678d3c52c3730a0e70a6a234de16e6f916d78a469e8f09de1b43e96983483b9c1102726e761e4f5a06bca1fdd088f2a6e82260cccbbdceb498ba627,
  0x64e4d5c20d05c66720730a58d0652b8443ae43981f936b4b910f906f3feb1daf95e27306fcffd20560814cbe1af4e0487f19e7ddf8a0baae52b78d19a4eb5e2254d9d91ca6978b5a5eec0cba8bd75a0f61c491daaea383d213c8feb2dccce6cf8d5b9d22ab1ca335b2ba9143a8e1a548f0eefd5db932f31310b382f111302ddb760c41f58a,
  0x64d0e5cb1755251affb17c3c14bbb9e382206d16678377589c190e6b82c2ee1d54dd6e26ef68df5c23e3d2b48e06c480dced59bb01e73ed682ff6daf15abaeabdcb40a6c2ee9558f1ca9cb824e8bcaeec871216e41f0f220320da08966c36c41aacab6cf6709249500bcaf2f90a991762a0d20a1ba1e0adb3a39940bea36a136acae76cd0b,
  0xa1e0c30d7db7fa9a26bc345dedabb4549467a1f727676cab11e8928afe525281b948a75b0436aeb088516a27f53e186a0d2af43ea7e0cc37bf3d8462e52981bf5b69cd39d90151312be0194f05e20e3f0d447c014c95d3b24b34dbb1ad1a904f3d6bcc5e2625057c2224c9e5421a4d85e1b2bbbe0ba08b7cb0e4fe532caac38c8942fe6692,
  0xe73ed381a91e5f5599c7e81f6bd2c7da47d5c500f028e6b46bb7fb7876f799ae51f3128c04bc10e29425ff4b38d838f35e706462541704e4adca423204ad966c7d17d8d8487de568ba9f041e063312186dbd3e415d544d4f8b1754f00db7a64e28e3ed3844668c77242448e3f061333750c28d8bdef530e61df33bd0070a92fe475eee3530,
  0x2f2b06097ae721012796224bb5c2426605d7cbdd0dae9d74e2f705f351458cd887d13daa1d7ea8a1728bfa49610ca1a3a83a6c734856dd2f86fd24e7a8305501167137e4bb0a30d0ce3d3b7b762fb821395aee49d29405788f6161426aa8d1280dbbfc06a0bb3ae3d1958dc8476684721e1d40b886d7f778948305a108e97b4fe226c91294,
  0xbc419994831f5b0178368bdaef9a9c02d4bc021c0a971ec89e7f8875a721ce2d28f2911fb8f63d3b867b958d98cc37d54b3671e7320f8486bdd5c323c0574e1590d039f9b6ec2f54b52b46a40464f1acffab400c80d3ae4e95638128eca0a365e8e031c8d87a4ff6ed24fffe1d923758c597ac6645a6877870ad6e00dac1b0ada0951ecfb5,
  0x4c44338463e703b62f2b00b2548d937587a8b08abd611dc4d4014816e0e69553843fe1ef1c52f5c0494bd15b0bf6074e07cc258b222a0540c6401773ca868538bbe4568a92b36c9066ed8d725eda65805c516c5c672f35ebcf92bb44a358ced47095ae5a21cab3ca2fc92b57025a48ec76a0e33c577fed970e6263d96c4c6544b69e03eb23,
  0xecde7bb0a0d80249d850455e11c58986f72090e6dbfdd1dc46e6e9c690be1f289372b06ec0d27e3374b327234be7db6542cebc1c4f32a2e59fc94c9b3215c74312d10862a5c976ca91d365cd0816090ae2eafe3b0cee1aa35bb5a62d703c29269fe42e8261b334afa9597fc3f8b3a848b5104734e80966368ae69d3d7eed2aba9754b1a74f,
  0xcdc76cceb0f877f32fe99a1e5c41c91a392604b1842963f1b0bdfbf0b5dad87bdce607eebb240091c3f23815d1aa795698bcf1ccf7404f2b1b0cb03c524ecf6ddafc2acf8b237297dc3b8729ca931195b8b33928f545a20e26565c4e19dc0b8da378793859c751a61adad056969faf0b20c20b99c666cab7a8cd6825172b8311d0296f0e48,
  0xd4b75b20bc1a9ee0d1f3acd814166e9efc1723f8a8236033b712ff39b2e14c14808e89a4cfb91fe9a23fd4b4e50ff7131d556396ee350f89102eaa932775493b97209321aca50dee2b94ba72c388c4b16d21e3c306540196c2ca97602c4ba54cd633aac2a25f6ddaccd0f71924db09a5d3ea491a338998b7556a65038c2fc7f1d0b24bfd91,
  0x66c38ce15ee546d1bc8d1300b44591d9176f50161969687bcf6f9f8db6ed3cf5a808f89a8d53a7f8c992c25e7fd26da12541e0f2ef819a0374ad8d56e8e9472594f0cd110b094256c67859a517d8a688fdb4cb802dbfbcbba9f3420f8cf437e13df8167bd81348a2439f24ec193f78925a9d370ab54551f8f6400cd20eaba890ec6dea8bd8,
  0x71b3d273b11cd400fe911fd98e6d2205958c99d0f309cec8701d3cd4865828572f3611582e16e91b705153521f6c38b43d46cee95d7d3afd82413cbf1ee67fa8b1d5d4deaf5b7c4065aa30a4e594ad59df8d5d82dc58c48fb0a5fbc94f4681a6f3feb50692f4a0bd4bca48ff94aa62459b7b4b432e92c71dcedd445fb145abc9d8a9a7ffbf,
  0x7170fa71eea36bd0c07cc295bd582f5b6fdfd3f1333768b3d7b3454cad0edef286571c898648c60af59a6bb0a3c4d1c660bb5cbd7b2012995d2853481538829ccae00bcd62cce48a7876cbc816fd848e9756fdb3e96cbe3b3937349341272c332771feabba7809d966b4b246e788d44ddd6e4900a02303f5abeda0321d21483cba02aa5231,
  0x8dad8a26b22b44f1cd523ad342b573cd49eb89469e6c3b20d19104fedd4c908d88e1c3104ed4612805919f929df3379dc918ebf8ef5bac9a8d72d5ce85c9fcf4bce86c2a91bac0dc1942389fa2e68ed5e10adc7c42901a2a95ce3269c4f707eb510674fa3356495e78f1c6a045887daef368310a90c374163be1d64e74ab2d011f2c94452b,
  0x1090e9ef7a59055e906d35791276b0606a030b5751fc3fa4f349eb4b75574314a5c533e74a0be5e1be2f88530f6492bcd75a2c9ee01468cdd34771595f8b4fa0360edabdad0f0921d957b9e4538a9f07dac9d6a11b0a0a44e53709d1e03977367db2050bdb00bbd9eb209901dc282ce15db2a31597059094653580898d267049b63863bbdf,
  0x885a60ef12ca977d6b9e953b4ff9ae09c2320517b81b6d7743699a2638545339d33517fd1a4e5ab8cd8bb83ebf7680f0ceb71ac2fe2cf00a3e545e6d462732f3430ca7d148d7c8d43f21f23844f08f89e63373c076a0d19c8549872f3c5b8e05518d09019aec5722fd5b85bb7c4a295c4da9310f7c096d8b6ddd913503d7cf9cfa8c10f542,
  0x0dde38389e3b730add79c0af82cfacf4ab824a0ebb98b60d65c05280e9c6ce5f7551339c44ba8f4a00d4a8efbfa20730d272f7ef5248752b2ec3c8c66a5bda50709d9ab7ae3aa010cd3907f1b8539420a1705f65783bf00221e9ded879c4976a5adfac745ca75c0929961edf4b41e5a504a6fc24b9ca1610290cde7890531d611063b0cfae,
  0x52fd1204c024de04746ce5db28a48ed5b3216742c3baa05119b82ce9c4b5065d75fd68205a165eb5cbe518d609557d86dc0c7ea5ed28136a7cc81e90f5b89ffaeda49ef54a36c87d3caa6073c310ca587182f9c3935fd85aa60d0c4ea758a97e8b53ca51d8fb53b6328af9dc10db2d9e142e1b307434a6944b282036134c545b6018c46488,
  0xe3ec0d58280b23af01efada3e97609c3b99fa4a1943ff5a60d5bc3ac5c1e4e42a9159865b06594ca5ddbd85df8afaea7bfdb96e0940c6aa355be58a976cda0286543798cb8ccebb297fd1fafca6bbcee7e8b63652283281c8521e79f7342f2a38dbcf69d6a675ef428d03882903ec3c53fec403ea2173fc5947af1073a1f751a3cd11216f8,
  0xf02f2634fcf2792fbced01a5cd079835d88e53593a5650cce7773645b07010dc7fcc419bd90061461fb685dcdddc91a4aa9e08c7be1186e86df4074de67d1edd8f93a2e7f9c343a8b7c0687cc56248834cf4661f87ca9d80b1c1f0039b6e6cf7de0c1c75c9ead8526f439b6b1c670acf4bf8fce8ec08ab848e9b0ab790f550316bcac0d124,
  0xab411691c7ba33aecc6ccb2723c91d9be951296a12ad10fd3000c5fac035d13fd01de6cf3eb6036752635d120ad7c91da6d4eda1a0d1b1c73c684a5eac4615812ebfdda476e9713086a7a44279025e5165faff13c9a801f65f1a9a52b7a188467d6f528fd6b226396924f6ed1563a64abd2df6642989af7726f7cc391a54aca77448e866c0,
  0xc0a6a665567beb79b7295282874b145fe2303eb18e7963fe61f4361b527204eaeae2c265e44afb6af283b2c8af32dfcd96e773d3609c58fabfa2c6e5f99212f26e2de7533845c17a5033e39445ed45326ce3fda0b02d300009536131662d7afc00805a47a434472f95f6f33186d81b0f8268b1ce139b08a426d03535aa3f82d254aeec09d3]

/-- The rows of fsb/src/pi.bin. -/
def piRows : List (List Nat) :=
  [piRows0, piRows1, piRows2, piRows3, piRows4, piRows5, piRows6, piRows7, piRows8, piRows9, piRows10, piRows11, piRows12, piRows13, piRows14, piRows15]

/-- `PI`, lib.rs:19 -/
def piBin : Bytes := piRows.flatten.flatMap (beBytes 133)

end Hashes.Fsb
