import Verif.Model.Endian
import Verif.Model.Tiger
/- The file /repo/tiger/src/tables.bin and the two versions of `TABLES`, /repo/tiger/src/tables.rs. The hexadecimal
   rows are generated by tools/gen_tigerbin.py: 32 consecutive bytes of the file each. -/
namespace Hashes.Tiger

/-- Rows of tables.bin. -/
def binRows0 : List Nat := [
  0x5e0ce9f77cb1aa02eca843e2034b42acd3fcd50de35bcd723a7ff9f6939b016d,
  0x93911fd2ff7899cde2298070c9a17375c3832a926b3264b170589104ee3e8846,
  0xe6ec037105e3acea5c53a308b86941c57cc4de8d9154e74c0cf40ddcdff4a20a,
  0xfabe4da7186fb7106aabd15a23b6ccc6ffe22f57216172131e929d196f8c481a,
  0xca0700daf4f9c94bc74152e8f6e6f526b64759eadb799085928c9ec9c585184f,
  0x4b866fa91e768ed77dc1b5528c42368ec16330372768cf696ec5b49b3dc907b6,
  0xeab5760e760e827d42dc7ff0c69c5c64e042332478a038bf047d2e9d3c346b5f,
  0xc60e0b60eb8ac2f2acbc54725fd80e6ce54fdba4812259719fed0fce69fa6719,
  0xdb4565b9f89352fd0b60a7f2d7e979c84e19930192480286b3c09c2d3b53f9a4,
  0x137695156c835390f17b35fc8acf6ddb570f377a7aeabe186690b950ca177103,
  0x354a4274970ab36a9b2425e3022fe9f4e1ca1c0607db3977052aa4ec9cb4f3d8,
  0x732f38513fbe56bd28bbb04358edfa45831fbf115c3d811c69a15fd7b6e4f08a,
  0x9999ad87a418ee331044c9b1eae8263cf922a8c02b1010b53b12e60c31ef1e14,
  0x54b1dd5900b965fc07e6e0c5408615e0cfa3c32698074e88fd35c523950d0d93,
  0x002b9a4e758d6335d59d4640cffc85404c3ae28bd27ab1c42e6a3e6afcf0b2ca,
  0xcd3f946b1a9760284604e312e26ede3dae6517e02af32262fe088347b50b555d,
  0x2aa2eda08da9efa9a70dc48616a751c3847c869c6d5805115328a2fd85eeffdc,
  0x76ef5e2c26d0fbcc01d29089cb94f2ba75d9fa2af56494e6143e13dfaf13b094,
  0x58c92328a3d1a7061911f63051fe956fc0062c464eb32ad9d2717c8833de7bed,
  0x3e3918656e6d74792933715d3819a45b6475a948b9a61b7c67acfd7b197c9831,
  0x023d054bc4236cde4dd602d0fe491c5871152638634d47dd62d073e4c34645aa,
  0x60f8559434ce8f92d994abcaba1b1648686f0e77302491631c64c602e6a5c86e,
  0x2bdd7d33152528871b704b03426bda2c6d09cb81c1373db06f1cc766824308e1,
  0x55b251ebc780312bbc8bc0962fb892dfbaf332a6c0c8685c56053d1c86cc0455,
  0x8f6bb25fe5a4bfabb4cebab30a8b8441325d44aa73a234b381d85aa8f096a6bc,
  0x6cd528b565ecf6244a52f4902e51e10c5ad306559dd79d4e7997cec6fa058925,
  0x339b103e5b291920cc54a0738b47a9f8b07e4134f9f22429c41b6d537d359339,
  0x8bffb61dc21aa838bf16607df1fbc447f5e36776ddaa0f1e96eb8b9362ffbc7a,
  0xc979c18f94ad8da70de51129b7981f8f911a1227ae8ee46108988531adf7624d,
  0xebea5cef45a3ebecce8496bc5eb2cef52162f7b70ce233f6e49382ab06df2ca3,
  0xa42ceea52c205a98b18f8acc47840bcfa35998974452769f170024a1b116d5a8,
  0x26c75dbb3ebad70b39db6ab855ca4be56380476cfd3a7a1ddd9e66e708c69e51,
  0x23aa49d1a215570e94f18f8471457d17224c0141325fb5eec22e6e3aa15c5e0f,
  0x61c3f5757b92298036e4d6c3ab9f13ad2f40cf4ca9f15d0dc8dfa5be48d98b3e,
  0x7ef73fbd57d3a0a545f6741f252ed1a282a0815e529efd66497a687fce900c2e,
  0xc53b97babebce8c25f7409e5bc010000d6b3dae6bb773742b56ef0ae7e1c66d1,
  0xd8cfaa4d351f78a1fcaf162b4a28112d1f1d89fa674ffcf1da0a92cb5dc2ec73,
  0x5126a1c2220c61ae8ab756d310a8e0960f87e72f1f389a5a30554ee9ed62add5,
  0x27148d36e8e525d23146afc7707b97654fd739deb289f89943d1e154bf303f23,
  0x973ca6d9d375969aa8f934f34f55705488564f4a74cb6a16adaee4b2aa4cc770,
  0x124d296f6491d0f0d1314068892ab8576b0bbe615a5ad9ef9af2f269e912bd2f,
  0xe89ffffe1370d39b065a08d604049b3f15fe6c16f3c14049fbdef3cd4d2c5409,
  0xe35ccd858321c5b441a66244dcb735c93fb6d38ea6f81734405b215b295909b8,
  0x72858c3befda9cf95db9fcf814068c01f3cd3a1acdac141b2d73bb00f271d484,
  0x16dae8950e11a3c1b8821abf20720a430e21df390d097eb79d5ed03c9fbdf45e,
  0x44a4577edaf64f9df8a5d483e1601dda478e991784c387b28618b31b12dc3efe,
  0xefcb0c98cc3cfec703fd9b1890b56fe4dc574c9a46fd323765adf17ca000f77e,
  0x59881da36844c659f6615bd4b4b02f7618770499d0ae5b15a6ba503d4c5e7568,
  0xdfb4d8227f4e21e9f495ac2e53bfdd2a0901bdb40939ae3250348eb037f54d83,
  0x8d722042a89d20faf723fe9e9b1d699e7f8daec488d246045b7869e124c54c7b,
  0x8513ca35017fd821a58a7b130f40bbcebe960758662b2e27deb0c22541261236,
  0xb2fb1eadbd027705e94bf8ac8ebbbad47bc61b643931589124e03680e02ddc8b,
  0xed689ff456813c601151efdbf736d2f7801ed28a59c42797d75f0a6796088aa0,
  0xcba9eb09438f4acba136700f4b56af81bd9a1978a79ab9c052e9c83fc81e9f95,
  0xb9814a797750508cf03863058fafca3a78677a62503fb40777ccecf549ab444a,
  0x98ee79b6e4d6c33b8c1014cfd1d4c09ca0c86b200bc00644892dd7c85488a182,
  0x2c433c5cb366e367f2372b1061dd23b91d2784d87927ab56af2515ffb0e183be,
  0xa9497e21d4657cfbd4e7486de7e0db6b9e17d9458782df0834bd53dd9a6aea22,
  0x0a2022561c146ee3ee50b78c1b5d807f37e8589fa5c7e5af3cc2b14f6a997fe2,
  0xd0f07507fb7d86d31a89886ede73e6d0256cb8af9eeb3a1295b845c1d5d5f130,
  0xe76972ee2d4a43bb38fa31f9ec67cb789cbf3b3272033bf3749c27fb3663d652,
  0xaa4efb0aac335f5087e1cca299cda5e8bb302d1e80744953906d87d511572d8d,
  0x8e03bc9128411a1f4866e5821de7e2d6b73277493a6c0374abf56163d97eb689,
  0xa202eaf1d895edff3dd46414d63b2be72048dc0b170f30a67aa778ed6087c1eb]

/-- Rows of tables.bin. -/
def binRows1 : List Nat := [
  0x3821a1055abea6e6987cf8b4a522a1b590690b1489603c56d55d1f392ecb464c,
  0x3494b7c9dbad32d9f5af1520e470ea08f18c473e67a665d7998d27ab7e75fbc4,
  0x92066e2d86c611df163b7f0df184ebdd04ea65a604f62e6fb3dfe0f00f0f8e4a,
  0x51babc3df8eeeda51e37a40e2a0a4ffc2984b35ca81d3ee8e21c1bba82f88fdc,
  0x0de853835e5045cd1707dbd4009ad1180181f3a5edcfa034f2ca8788517ee70b,
  0x3651c4b33814341ef9cc8990f49757e0141d59f29d3fd2ffcdc5958522da3d54,
  0x332a0599fd811f66767b0fdb41e6368707538e4125772215fab22e16467f5fe2,
  0xfed9136c12b2a848ea6ee7921754dcaf8f89d1c6bf12d9031bf5831bfaaab131,
  0xd9b72ae49627acf1acebd2fcd7a7a340c5bcfb0a6d135610850c6d9adde18978,
  0xaa74792a782535d39bc08a07095de2a7d0edc6eab33841bd709eeb71bebf0a92,
  0x5c62c24ff5d0a5a2a390120b6be354c02b93fe62ff59ddf67daca81145353735,
  0xd4dcfa72915e84cadc209d32602bf884182f67cde12cc6792c6424d1ada2098b,
  0x26e7d9196ae9c1d00c50a94b9b6a785af3434c633603020e22d866eb4a477bc1,
  0xc2aa9bece31a736a580284e07a662682a5ecca917656d467b5ad75485c15941d,
  0xdf3f815b98fd006d06cd74b7fc6e2851af44a71f4734885e2eae61e7aea02cf7,
  0x9ae0e8aecde440be65f61851bb0b97e96419df33eb4b6e726297192907003b70,
  0xa730eff516d83146bea60415b5b580b86c4bd87ec3931764967de9f677ed217b,
  0x736bf92e31066377f4f36fe8488952aef8f8a386f2d7db536310fc4ce7dcca16,
  0xddc652fabd195c00d36ad4645d8f86686a181ecf2c519d3aae605638c2627e36,
  0xd7b1dc77eae759e36ebe9a7473076c524b739fd0f9e55a73a88b558accc73f49,
  0x45ab413053c1b9b0bd590a47ba58193293c3465f0bb02d85e5b036d32b9b2091,
  0x9ff19e657d4f606e24cb2c78e28a9ab9c7c414c8b62af5cc7b7211beafd92747,
  0x4db321010c0d957e1f47ad7056436f7549685a6142d4adf57a95b98099e0874e,
  0x55e3ae50dfa1cf2a56d52ffd3a2698d8d68f0cd84d92f4c83a174a753dca99cf,
  0x3cbf91afac7b47fe2dc190d6f67153ed9470685e285c1a83a4a008370ac9d3c5,
  0x8065d01737907f0f7ff2fdb813bbf9194328504d1b6fbdb11240ff8fa31b761c,
  0x3b1fe2e2c430150d8a2c37a769ce438966ceb5fe114e18e5216673bd80db8b61,
  0x0b4d578bd6ba297d5bfee6253e61bb813f9107bc109c1c07972dac0979ebbec7,
  0x57d7c53b358de5c3e8618ff3927801eb1ac21c9b9cfbefd4abf794f4267d7299,
  0x033e6b95a263e0a3309ca04a9a8b4a9db40f0900d5b76a3fc08a2657a0f2c09c,
  0xd142bfed2d9dee3d72a96079c8490f33411b42870272b2c69c36007cc09ec50a,
  0x253435cb49ac4eefd82901ef4e2450f4b6def4cae546cc8af763929863abfe2f,
  0x78457a5dfeb97c8f3546634e64f7d85b00c92dbf15737a421c262521aac4d017,
  0x508e51936c489239c3d4d7a2e0fecbb48ddd5d2c20d6757c616c5be3d895c2db,
  0x192b0302d369b3603241e4dc5f6842ce1056f6ddb9ddf306f048e1b51dd2a48e,
  0x6f49cd2fe6fcb02031eeb05823911b2c08a3f518b81783b2cfd2a69c181e9ca8,
  0xc8dbaa6a57186b0ce3fa9912a9ea5db6e727107f4b792bfbeb5b3b447f31e404,
  0xa6d03959322d854bfc7f20fbee6baed574d3c781b282963075b4c394a109e3ba,
  0x059fb4137bf9c38c673929f82f42a9987cff7610b0164b24ee673d661c57bff8,
  0xa10de3ee58670d1fb7b9de7ad911b6c9a2576c7b88d5afb7e14f986b84ae9062,
  0xfda5c1acde4cdf94ff3a48c5d15b8a05373cba42c16c1663406ff7b26e52b88d,
  0x4e6d0d6f038008e11d311d97c923059e91d67ccc2428ec45c98223e659835b57,
  0x959988c40d409efa68157245cb3e82d12f0806823b98fddacba8862308297daa,
  0x8875b80344cd9f26e0d1bd28f7f5911bf6010204399f66e4de4af08c217c1d7a,
  0xcee59cd7293c6265b10bc09690446823ba03a59d87f19bab8e0558a4b1ec23bc,
  0xcc1e40bb01df589a3d145fa868e870a09e23f27d3088f14f8311641ab465d514,
  0x02167052743313ee095e283fcf3d0e955309c8b9540293596dda30894099f23b,
  0x871369533f9455a98487cba9cade5ea1a0e92b3527211429fb7a4eff1f37f076,
  0x28224f2750f439028b865e1df03a07bbc1960ec17105c8bf232e2268850867d2,
  0xb0b5808ed4a3719681bb93e18ad3b555b8048ba1d0e23a695f33d5adecb4485c,
  0xcaa11649193b74fdc498be3481017725ada4543ce88779e7b9e133da1410e128,
  0x13a26a229ec50c27605f1a6d755f497177efaf60fb53e89bbf3d44f7a786c7ad,
  0x829ab273614504095ebd32c2667abc58b2c83a678c5506f32a77c9b6c639f641,
  0xda35da9fe9ef6d2115e67b1cc70c641127555c569436c49339787746628e03ea,
  0x69243e5acef3abf9d212d30f8d761e74c652d6ce83b8440152853fa35b5a0bc2,
  0x9d5a43c33396e61aecfd8c08a48ca29720f4961e3ca4248846a7ee6ea62f6137,
  0x5a0ecff965b14c6b4afbaba0061caa436b7962f16fc24d7f0f9bed548eccba6c,
  0x3e25bbd2efffb7a64f9da2b095bc252e8c38f1de8ba5d68654f0b676c54ad7de,
  0x5d80452bbcbd308089924de970af813cdb00319eda6dff3e4788ccdf9fc38db3,
  0x7eb8178d5285381242b6b140d20edaf2a9f94bd5dcface44e67e3c430e201213,
  0x48c7783a4fc8fc9fbb768524721fcdf0e4cf3836057469ec4c4eec0c7cb6a72b,
  0xed32cee5f34d2fac114cea2643d133cbbc587ec74c04e9a4effc34d99332515f,
  0x4454e5065564c95d0ae47d318f41de5059e2dd691ab38c38860a825534a8b42d,
  0xe91a71841ea91090718349b1b7f0f74d797197c0ab2e2ad60e5c8daa97c0fa22]

/-- Rows of tables.bin. -/
def binRows2 : List Nat := [
  0x9bf3daf12fcc9ff48192f26fc6d57f483fa8dcfc6706a3e863cefcd2e34b9b2c,
  0xc2bbfb934bf73fda66ba70fed265a12fd4930e9779e203a1715ee4b077eccdbe,
  0x97e48539721eb4cf1750f75e02aa0ab7e0b84038f00923d479858935d01afc8e,
  0xc5abb2e20b92c69672915a376341af66fb2771cadcab742141ff724aa6ce3cb3,
  0xa566300833494af0f59a28d7cd0a978d5ec2c831e0e8968f475d877622c0fef3,
  0xdd90610510f37bec91140fbbaeb0adf59288d50f85f8509be84db75883487549,
  0x611c5391f64f35a3eec6d281e4bb020798eded7d0524fb8902e99685137530ac,
  0xed72271780352d1d0dc36b8ec28f73eb264304638fef5458be3bdd5a32525c9e,
  0x23465c32cf53aa9067d09d34514dd2c124a69ea6eecf51204f7e2e860a0f2213,
  0x6448e004943939ceb7fc8670a42cc4d9cce7038a23d25a68dbf12fabb2846406,
  0xec79bfef705d9dfe5418489cddb9135bad0915ed75d4f0155198c70e06cdeb0b,
  0xf8b73a1891678cd5e4eef352507c18d1ff824ee592115dc9a26cacb94ca1ee86,
  0x5d7d6753b1be85342a498c1f781d19ddf9eb84a7ba6608f6748cd0a23b648f51,
  0x227c08e156e952888dae10c48dcb68a71a8eecbf26770438aa453bcdb43877a6,
  0x19de0dec1c6916ad072e46809331d4c63819a60b6d87a5c540d88fa51ffab916,
  0x184fa73c17b18a181f029cc9982fdaab16e84a13ab80053ebb5a6473b7053b5f,
  0xf6f27555bea20125a98b7e4e00742f1b53d9e8710358d71c304e766295d86e7f,
  0x3d006f59ff2659b1b9d6c5a83d29659f4cf890d64df0ce6e88af33ff5f278247,
  0x0108823f083314e4b5f91a9a40fe0dfd6b39db2c34a3254352b201b3627ee78a,
  0x5a6155669f9e6fc3092cd3922d5a458585744749a9dec7f2ba9ea333c1b4cf63,
  0x6254bc6ecc40b083b026b3fdc854943b8cd7ff879e6af556c62bf4990d94c22d,
  0x2d6e096b09dff798bf52d83a1ee0a6190bb4d4dbcb9ca94259c5e945af9899a5,
  0x8631d907e895623673f7a1fa1b18486b1d0a7a15e257ec1fd51a20f66a446746,
  0x75f0b0cfcaeb15e6780729684f1ff3b81ed122ced63e71223bc9c32ea7c15730,
  0x2f1f3f7cc3ac46cb0ef5aa02fd93b8dbcf9f0b602ed91f33d63aea4861f998a4,
  0xea836a8b6e42d8a8dc5c73b774b289a0114a521e73b3f6874967c9cbe5088811,
  0x94d39bb1c7e406990ca2249b7e7fedafa74436ebdeea0965de0eefe8d3f11e6c,
  0xb48f79e9437dc9b9a3280c7484d7f2a26f5697614796847b9d065fb6e6e35b7a,
  0x106fbe78ed3063f9156a077ae70de6eed09b8ba04aee4b2b4e89b8c73ea6566a,
  0xf4fe34ba59131202fc033728f899bf4cc830af0c357180397a6817f0897aa7d0,
  0x6935429eeba9c1f19981ee2d2876798cbd7a1fdda537175d80faa9093c43534f,
  0xd9a17cdf530c8bfa77cb6c88bcdcd93f20471ba97c9140c0dfdcd1f94201d07d,
  0x587b384f1dfc7684036531f3c5e7f8233973e3e744222a034ba7f550d7a5875c,
  0x2e999836c44c2b083cf658b8ec7b91dfda6df85bfcb8703276ddb529bb72ae10,
  0x2b3600774ec96a578ffb1ec6da12d11a27a4fac50ec31b69437132cc116324ff,
  0x0632e5308e36423196a32ce0310e3871f176ad0a965c8d9536a56dc130f4d6f8,
  0xd2e1e71b3fd1ffc8e1db4d0066ae787546e67b06013f83056d58fe3badb534bb,
  0xf0972ba1c9345f09a80cd62545b67a24d1777401f3c6dbdc4dd2caded4142e4a,
  0xeb1e0abed9e6b5bdab014379f7707e2afd4005278a2df4dec1224ca3c08e0701,
  0x8763c1f41a51dee50a339abd523abb7e35647daa57786977324cae0316834e00,
  0x12e378ad2010a2e7f220b46a0ca7419de64111ea186ce028286b4f98bd8cb2d2,
  0x839d6e446c5fb7267f8d414d8c5647ba8e3d18e6bfad0bd84460165f7f6d200e,
  0x3ecacb1139a458e2bcc01db246173a72d3cdd7f554a8cac79c1d263d8832ac7c,
  0x2c94ba2364c29076b84280472455e5179f38a2567647bee0a02dab675e9b284d,
  0x31fdbb8f9c2b86446513149d04c87cb493c7912b361b2c82d8df13fb5546b14e,
  0x7ba9e21407bacb1e145fde5c9d45436189acf0d5f1fba853005b5e1cd804ea97,
  0xf3b3fdd4a881216208122a5741d3bce98ae5cc4386251114a4e0c6a4fec54491,
  0x0f62cf6565d0330da19c219f488da45421c8636dac5e3ec4af0d77723a8b72a9,
  0xef87df207b4e93d7e5863e1ab60355e304d519c8fb21e3caa6bf60acb3509a12,
  0xc3b69f7eea685ecdc7b1839419901cb06c3795c2d53ce93d13adb92adf2ed5ae,
  0x8478a0c012f5602ec91062e3a3863dbcce5139169b9d2635fab5cdd02a6e7d0c,
  0x33577fd89762e859e7b08d8921f28e297eaaa5d129000055451b06b5e18ac08b,
  0x3a70926c2b1cc3c242ef25af6b59cc9456045422db731d0a9a17c4d9f9a0b604,
  0x603c3daea2affdefc49694b45b07c8f7e3d41c1d14c7c59c34558e213816bd78,
  0x6a2450f86815f1b229bc0295fabcfaed1b0523daf2e56c797c5393dcb028e1aa,
  0xae294beea03d493ad79568412c6bdfb5377f2d1225bdabfcb1c45d10580b8170,
  0x902a88f737dd0fe15c3f8a51b5ca4d525b25518487859e3ce234bd1981822940,
  0xcbec3c5d6f5ba074ca3ee142150210b6ace2592fd179f90f50ccf9e427da3760,
  0x7d84f10d5a97925efe23e6d390e16dd64880567bb8d632506e213582ceb7369a,
  0x4a4bf6247a2a2780f716698c8bedef935515ce4cf4bfdd3725bd994b5ddb954b,
  0xc02f8169a1fdd392b60b66909a4a1afbb2b9a44669190c7368da497faa89e281,
  0x5fa0b1830f9a66648bf444967dffb327b375b68d5c616bcc95beebbcb9204f67,
  0x825965758223316f05cf453e7188e45a5711c254999f61bfe9eaa84060c4baea,
  0xcdc1c0f2e96f4c451c69126449f69c41700f5b26ef3bdcd39e8a57c3f5600e6d]

/-- Rows of tables.bin. -/
def binRows3 : List Nat := [
  0x553c322685600e5bf5591bfaa9c1461afa8f4c7ca145e2a9d75529db5951ca65,
  0xc2af35ce760adb05453d11a97ec7ea810d0aacb68af88e52ffe37b5953a29ea0,
  0x56cd48acb3df0d436fe45cf47aa6b3c45ed0e2fbd8cfce4ef03599b3106ff53e,
  0xc619d69c82d6220b6920df740a46fd1740ed10858eccf86ca7ca6e3abf24c8d6,
  0x4970811a583d2461a263c1bbb6ac8b0432cc447dc28aa3d9ab10f4aa5bffdd7f,
  0x4b8204a85a496dad949f8c2d4fa7a6e1e3e8de351285f7d493d84065887f4bfd,
  0xdabfa42a04207c247c32d117c5a16e0985661a36b46669d57d052112c3a57d27,
  0xf7cf3aa49398d5948122c0cd1cc5f064db8961ffc4bc333df16ae64c18cb05e0,
  0xea9bb91d1dcd5cff0f9842fea754b8b09f4b8d716a6ad47b8cfda522cca80fd1,
  0x31bde42b958414d3473824cb5f97fac707c446581eed8648040bb71e79dbcd28,
  0x7f4173f5e20bb0c277f880214590955c00eb70f3ffdd6b7aa4d6d9d6389e50ce,
  0x02a77f64000febeb066f6076cf06cc1d0aff86a28bf2d9e462c218c95d305ad8,
  0x545f2232871d5b47feb5cc6816b54f2d20ba2bd7d9b979a6a5432d910d1c8453,
  0xe8a412bf48aa7e3bdf1d2ff2470e1e787309b50ae60cf2ef42b7ff9dd161d220,
  0x392e2a06032ba1169504653922eb6019b8b80ed5fe161c256e0126f830c3c09a,
  0x71763e95652615ed709536a69431d60287c9b19483f07450e15cb2908c59ba70,
  0xf642970b81154a796c8caffce925590d4e7468d86c7167301b73d7e877b00a91,
  0x612fc45adbbb616a671585f0fb3e5193d5e9839e4b7294f48d64095c98e187e8,
  0xfd0c3775c6d3b1345d250dbc33e435dce01b133442b8aad0af7e8bb4502a0408,
  0x35aba344eec49799d0991720497b9a824144c5b707833b26a66c6afdf4952f75,
  0xe5c6082c40177292eed995a754b78a2a3d94722f55f742a4081278194e33312c,
  0x9162eeea7c8da94f09b35d662f86c355f3b1535d171006bd273f4140b86cfe46,
  0x59fa0cdf9237e03f8f5eb82e3700e7cf18e1bcade729bea7dd3184de5cee44e5,
  0x3e87f1411b1b788ae7f0d2a0784cc9a52807b677282e41392ca6c9aff35e26a1,
  0xc506256a0c77c2bc12cee1dcd56db63a375b674ad09954e616d2bf8134528f7d,
  0x89f315ecfc646f0fc8135b8b61beef741d3e2714b782dcac179d1903e0bf40dd,
  0xf861e0e75792e937aa5a7704696252faf9563d463af6bb8b646ea243153f01f0,
  0x98c89e879f7e30a8cc770115a4274ccc48331dca2c2f431b13a06f9f8f1f1dde,
  0xd6dda747a0026660c7b21ccc64ab37d2d3d1fc25728e939b76f40f8e70034eec,
  0x2dc1033ddafbb2fe9a8843eed2ce0bae434ffbeb2389cb226d39f73c010d3669,
  0x22e0d4d202365e854c781fd0ba05380746f55238137ae13338b6c78a057448df,
  0x4aa18a679cb292bacdadfa6cc79fe80c349e3308094e9d5fb923591f29e9aff1,
  0x5f264a0ff680346e1c849bb22a3abfeeadb4918fa83819e2c3d3c645f8efdf57,
  0xf2aa2cf60b6b002f78ee756fef79f462a916891cd45aa51153d4fe8490d229f2,
  0xe600b0167bc2f14274c0239874761f2b605374c2a3ec764bbd9116b963f4988c,
  0x6ae6adf13cc9bc149783456d3e21858811474d27f07d178e51293f50b5739bb4,
  0x6b6bf9c368811610aeb0ca633b963d0e14dba155564bfc8d5cde146e35f189f7,
  0xc1da514eaf683e68d90f4b8d9d4fa8c9d1f9a0523fe09136808e87e1466ed85e,
  0x5071d0990e1a713c10934e0cb265085a2e68f0e41ffcfb569bdf5e10e35d8dea,
  0x7a187923b1fdab719c7be7bee19db92e2345cf33eac0ec21a1c7051852d7a459,
  0x727cae56ebf59638dc758fb13d8f63aa8e80e9ab8d35399fac720bc091fadeb7,
  0x922d4962fd41556b5b4d2ef9e8dec66d7eeabec4ab573f35ce9056dad6695773,
  0x84143942a64a230a9d0df8288050f9f615f2b37aa219e3b84d1a3451119cad31,
  0x0558ef7ba5223c77338696071a56c74536be9d249eda13f9684ca6789b2d65da,
  0xef34c33b7fa9274cf4176be6201262760b7dcd9a894377968267ede0ca5beef3,
  0xfc79c80036759f40b66d92b5399ad00688c57a31b0ae836f211f38864acae601,
  0x25309fd16234ff66fb3bfddd247c2072ebe2ece2d3b6f64ade08eac7be4d999c,
  0xc48b9ab097e5ac49ba9707cf66478cb3752a7cc573931b13581e9361ce2c82b1,
  0x0c1cba09b955759dd2117d93ddaf7f12e4926dc6ad3bda29bcecc25471d5c1a2,
  0x24fef6824d13c5584f27625b51e33a1c2681cb012ec807e9cb7fe3131909edf8,
  0xc94600c8f9d8493263fb88e3ed9bcf809ef16c119a5381185724d56bf7f30351,
  0xa8f747aef5e6b715cf9c7ed4dec6d7db1abb2802415ce544994edb5e25d447b6,
  0x30fcaab82b88115d2a21d329bb8b09f5b39602e914eab58f5a02dd5721947b67,
  0xb5ac90a3c0e758fb014abd834c67d3893bb9f34bdfa42d9e2948ab8c321ec4fc,
  0x522c58ba968cf303b25dd87fbdbdd1ca83ae8260c142b4bbb09adaa56be85fb9,
  0x3fa9713767042eb2d8523149c95853841e54b49786482abe66698ed32ddca295,
  0x2b853c92ac112cc07ba8f20d99b18823be374f1bfa08807c03e5544dc8d0701f,
  0xd457ce7eecad90543a3a06d9273c2b00bfa2308084a3ae7ec00320ed6d3202c6,
  0x8640a9697d28a7838a7af530cb5f7ac579e7eb79e44468b5e9bcdc050fb473a3,
  0xe20e57886e781ad7a0f6e8bdcdba9c872fa364c1bcd16a978bd766965ee221ab,
  0x3cc3e5e5aa631090908d694844b31898bb8a1e3eae8764e3b4dc3b8931f9bdaf,
  0x19d5bb5fdca04563ca65949b26fe2886ec519c3f60015d1eb74950a10640e44d,
  0xb1cb76f7e5706cbfed2b55eff2181241a3365a7008070ccb4460984f75144de7,
  0x0e28a80e43d956cd65505f53d79125c196ef0a72f12332c81fa563736f39a0c3]

/-- `include_bytes!("tables.bin")` -/
def tablesBin : Bytes := [binRows0, binRows1, binRows2, binRows3].flatten.flatMap (beBytes 32)

/-- `transmute_copy` of a file of 8192 bytes to `[[u64; 256]; 4]`, tables.rs:4, :8. -/
def transmuteTables (e : Endian) (file : Bytes) : List (List W64) :=
  chunks 256 ((chunks 8 file).map fun c => BitVec.ofNat 64 (ofNe e c))

/-- `TABLES`: tables.rs:3-4 on a little-endian target, tables.rs:6-19 (every word byte-swapped) on a big-endian one. -/
def tablesOf (e : Endian) (file : Bytes) : List (List W64) :=
  match e with
  | .little => transmuteTables .little file
  | .big => (transmuteTables .big file).map (List.map swapBytes)

/-- `Tiger` (`ver2 = false`) and `Tiger2` (`ver2 = true`) on a target, lib.rs:47, :49. -/
def coreOn (e : Endian) (ver2 : Bool) : Core State Bytes := core (tablesOf e tablesBin) ver2

end Hashes.Tiger
