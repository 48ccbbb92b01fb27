import Verif.Data.Words.Check

/-!
# bip39/wordlists/chinese_traditional.go:23-2071

Generated by tools/gen_words.py: the words of the text `chineseTraditional`, which has one word per line. The CRC-32 of the text,
proved here, is the constant of the file's `init`.
-/

namespace Bips.Data.ChineseTraditional

/-- bip39/wordlists/chinese_traditional.go:23-86. -/
def w0 : List Nat := words! "的 一 是 在 不 了 有 和 人 這 中 大 為 上 個 國 我 以 要 他 時 來 用 們 生 到 作 地 於 出 就 分 對 成 會 可 主 發 年 動 同 工 也 能 下 過 子 說 產 種 面 而 方 後 多
  定 行 學 法 所 民 得 經 十"

/-- bip39/wordlists/chinese_traditional.go:87-150. -/
def w1 : List Nat := words! "三 之 進 著 等 部 度 家 電 力 裡 如 水 化 高 自 二 理 起 小 物 現 實 加 量 都 兩 體 制 機 當 使 點 從 業 本 去 把 性 好 應 開 它 合 還 因 由 其 些 然 前 外 天 政 四
  日 那 社 義 事 平 形 相 全"

/-- bip39/wordlists/chinese_traditional.go:151-214. -/
def w2 : List Nat := words! "表 間 樣 與 關 各 重 新 線 內 數 正 心 反 你 明 看 原 又 麼 利 比 或 但 質 氣 第 向 道 命 此 變 條 只 沒 結 解 問 意 建 月 公 無 系 軍 很 情 者 最 立 代 想 已 通 並
  提 直 題 黨 程 展 五 果 料"

/-- bip39/wordlists/chinese_traditional.go:215-278. -/
def w3 : List Nat := words! "象 員 革 位 入 常 文 總 次 品 式 活 設 及 管 特 件 長 求 老 頭 基 資 邊 流 路 級 少 圖 山 統 接 知 較 將 組 見 計 別 她 手 角 期 根 論 運 農 指 幾 九 區 強 放 決 西
  被 幹 做 必 戰 先 回 則 任"

/-- bip39/wordlists/chinese_traditional.go:279-342. -/
def w4 : List Nat := words! "取 據 處 隊 南 給 色 光 門 即 保 治 北 造 百 規 熱 領 七 海 口 東 導 器 壓 志 世 金 增 爭 濟 階 油 思 術 極 交 受 聯 什 認 六 共 權 收 證 改 清 美 再 採 轉 更 單 風
  切 打 白 教 速 花 帶 安 場"

/-- bip39/wordlists/chinese_traditional.go:343-406. -/
def w5 : List Nat := words! "身 車 例 真 務 具 萬 每 目 至 達 走 積 示 議 聲 報 鬥 完 類 八 離 華 名 確 才 科 張 信 馬 節 話 米 整 空 元 況 今 集 溫 傳 土 許 步 群 廣 石 記 需 段 研 界 拉 林 律
  叫 且 究 觀 越 織 裝 影 算"

/-- bip39/wordlists/chinese_traditional.go:407-470. -/
def w6 : List Nat := words! "低 持 音 眾 書 布 复 容 兒 須 際 商 非 驗 連 斷 深 難 近 礦 千 週 委 素 技 備 半 辦 青 省 列 習 響 約 支 般 史 感 勞 便 團 往 酸 歷 市 克 何 除 消 構 府 稱 太 準 精
  值 號 率 族 維 劃 選 標 寫"

/-- bip39/wordlists/chinese_traditional.go:471-534. -/
def w7 : List Nat := words! "存 候 毛 親 快 效 斯 院 查 江 型 眼 王 按 格 養 易 置 派 層 片 始 卻 專 狀 育 廠 京 識 適 屬 圓 包 火 住 調 滿 縣 局 照 參 紅 細 引 聽 該 鐵 價 嚴 首 底 液 官 德 隨
  病 蘇 失 爾 死 講 配 女 黃"

/-- bip39/wordlists/chinese_traditional.go:535-598. -/
def w8 : List Nat := words! "推 顯 談 罪 神 藝 呢 席 含 企 望 密 批 營 項 防 舉 球 英 氧 勢 告 李 台 落 木 幫 輪 破 亞 師 圍 注 遠 字 材 排 供 河 態 封 另 施 減 樹 溶 怎 止 案 言 士 均 武 固 葉
  魚 波 視 僅 費 緊 愛 左 章"

/-- bip39/wordlists/chinese_traditional.go:599-662. -/
def w9 : List Nat := words! "早 朝 害 續 輕 服 試 食 充 兵 源 判 護 司 足 某 練 差 致 板 田 降 黑 犯 負 擊 范 繼 興 似 餘 堅 曲 輸 修 故 城 夫 夠 送 筆 船 佔 右 財 吃 富 春 職 覺 漢 畫 功 巴 跟
  雖 雜 飛 檢 吸 助 昇 陽 互"

/-- bip39/wordlists/chinese_traditional.go:663-726. -/
def w10 : List Nat := words! "初 創 抗 考 投 壞 策 古 徑 換 未 跑 留 鋼 曾 端 責 站 簡 述 錢 副 盡 帝 射 草 衝 承 獨 令 限 阿 宣 環 雙 請 超 微 讓 控 州 良 軸 找 否 紀 益 依 優 頂 礎 載 倒 房 突
  坐 粉 敵 略 客 袁 冷 勝 絕"

/-- bip39/wordlists/chinese_traditional.go:727-790. -/
def w11 : List Nat := words! "析 塊 劑 測 絲 協 訴 念 陳 仍 羅 鹽 友 洋 錯 苦 夜 刑 移 頻 逐 靠 混 母 短 皮 終 聚 汽 村 雲 哪 既 距 衛 停 烈 央 察 燒 迅 境 若 印 洲 刻 括 激 孔 搞 甚 室 待 核 校
  散 侵 吧 甲 遊 久 菜 味 舊"

/-- bip39/wordlists/chinese_traditional.go:791-854. -/
def w12 : List Nat := words! "模 湖 貨 損 預 阻 毫 普 穩 乙 媽 植 息 擴 銀 語 揮 酒 守 拿 序 紙 醫 缺 雨 嗎 針 劉 啊 急 唱 誤 訓 願 審 附 獲 茶 鮮 糧 斤 孩 脫 硫 肥 善 龍 演 父 漸 血 歡 械 掌 歌
  沙 剛 攻 謂 盾 討 晚 粒 亂"

/-- bip39/wordlists/chinese_traditional.go:855-918. -/
def w13 : List Nat := words! "燃 矛 乎 殺 藥 寧 魯 貴 鐘 煤 讀 班 伯 香 介 迫 句 豐 培 握 蘭 擔 弦 蛋 沉 假 穿 執 答 樂 誰 順 煙 縮 徵 臉 喜 松 腳 困 異 免 背 星 福 買 染 井 概 慢 怕 磁 倍 祖 皇
  促 靜 補 評 翻 肉 踐 尼 衣"

/-- bip39/wordlists/chinese_traditional.go:919-982. -/
def w14 : List Nat := words! "寬 揚 棉 希 傷 操 垂 秋 宜 氫 套 督 振 架 亮 末 憲 慶 編 牛 觸 映 雷 銷 詩 座 居 抓 裂 胞 呼 娘 景 威 綠 晶 厚 盟 衡 雞 孫 延 危 膠 屋 鄉 臨 陸 顧 掉 呀 燈 歲 措 束
  耐 劇 玉 趙 跳 哥 季 課 凱"

/-- bip39/wordlists/chinese_traditional.go:983-1046. -/
def w15 : List Nat := words! "胡 額 款 紹 卷 齊 偉 蒸 殖 永 宗 苗 川 爐 岩 弱 零 楊 奏 沿 露 桿 探 滑 鎮 飯 濃 航 懷 趕 庫 奪 伊 靈 稅 途 滅 賽 歸 召 鼓 播 盤 裁 險 康 唯 錄 菌 純 借 糖 蓋 橫 符
  私 努 堂 域 槍 潤 幅 哈 竟"

/-- bip39/wordlists/chinese_traditional.go:1047-1110. -/
def w16 : List Nat := words! "熟 蟲 澤 腦 壤 碳 歐 遍 側 寨 敢 徹 慮 斜 薄 庭 納 彈 飼 伸 折 麥 濕 暗 荷 瓦 塞 床 築 惡 戶 訪 塔 奇 透 梁 刀 旋 跡 卡 氯 遇 份 毒 泥 退 洗 擺 灰 彩 賣 耗 夏 擇 忙
  銅 獻 硬 予 繁 圈 雪 函 亦"

/-- bip39/wordlists/chinese_traditional.go:1111-1174. -/
def w17 : List Nat := words! "抽 篇 陣 陰 丁 尺 追 堆 雄 迎 泛 爸 樓 避 謀 噸 野 豬 旗 累 偏 典 館 索 秦 脂 潮 爺 豆 忽 托 驚 塑 遺 愈 朱 替 纖 粗 傾 尚 痛 楚 謝 奮 購 磨 君 池 旁 碎 骨 監 捕 弟
  暴 割 貫 殊 釋 詞 亡 壁 頓"

/-- bip39/wordlists/chinese_traditional.go:1175-1238. -/
def w18 : List Nat := words! "寶 午 塵 聞 揭 炮 殘 冬 橋 婦 警 綜 招 吳 付 浮 遭 徐 您 搖 谷 贊 箱 隔 訂 男 吹 園 紛 唐 敗 宋 玻 巨 耕 坦 榮 閉 灣 鍵 凡 駐 鍋 救 恩 剝 凝 鹼 齒 截 煉 麻 紡 禁 廢
  盛 版 緩 淨 睛 昌 婚 涉 筒"

/-- bip39/wordlists/chinese_traditional.go:1239-1302. -/
def w19 : List Nat := words! "嘴 插 岸 朗 莊 街 藏 姑 貿 腐 奴 啦 慣 乘 夥 恢 勻 紗 扎 辯 耳 彪 臣 億 璃 抵 脈 秀 薩 俄 網 舞 店 噴 縱 寸 汗 掛 洪 賀 閃 柬 爆 烯 津 稻 牆 軟 勇 像 滾 厘 蒙 芳 肯
  坡 柱 盪 腿 儀 旅 尾 軋 冰"

/-- bip39/wordlists/chinese_traditional.go:1303-1366. -/
def w20 : List Nat := words! "貢 登 黎 削 鑽 勒 逃 障 氨 郭 峰 幣 港 伏 軌 畝 畢 擦 莫 刺 浪 秘 援 株 健 售 股 島 甘 泡 睡 童 鑄 湯 閥 休 匯 舍 牧 繞 炸 哲 磷 績 朋 淡 尖 啟 陷 柴 呈 徒 顏 淚 稍
  忘 泵 藍 拖 洞 授 鏡 辛 壯"

/-- bip39/wordlists/chinese_traditional.go:1367-1430. -/
def w21 : List Nat := words! "鋒 貧 虛 彎 摩 泰 幼 廷 尊 窗 綱 弄 隸 疑 氏 宮 姐 震 瑞 怪 尤 琴 循 描 膜 違 夾 腰 緣 珠 窮 森 枝 竹 溝 催 繩 憶 邦 剩 幸 漿 欄 擁 牙 貯 禮 濾 鈉 紋 罷 拍 咱 喊 袖
  埃 勤 罰 焦 潛 伍 墨 欲 縫"

/-- bip39/wordlists/chinese_traditional.go:1431-1494. -/
def w22 : List Nat := words! "姓 刊 飽 仿 獎 鋁 鬼 麗 跨 默 挖 鏈 掃 喝 袋 炭 污 幕 諸 弧 勵 梅 奶 潔 災 舟 鑑 苯 訟 抱 毀 懂 寒 智 埔 寄 屆 躍 渡 挑 丹 艱 貝 碰 拔 爹 戴 碼 夢 芽 熔 赤 漁 哭 敬
  顆 奔 鉛 仲 虎 稀 妹 乏 珍"

/-- bip39/wordlists/chinese_traditional.go:1495-1558. -/
def w23 : List Nat := words! "申 桌 遵 允 隆 螺 倉 魏 銳 曉 氮 兼 隱 礙 赫 撥 忠 肅 缸 牽 搶 博 巧 殼 兄 杜 訊 誠 碧 祥 柯 頁 巡 矩 悲 灌 齡 倫 票 尋 桂 鋪 聖 恐 恰 鄭 趣 抬 荒 騰 貼 柔 滴 猛 闊
  輛 妻 填 撤 儲 簽 鬧 擾 紫"

/-- bip39/wordlists/chinese_traditional.go:1559-1622. -/
def w24 : List Nat := words! "砂 遞 戲 吊 陶 伐 餵 療 瓶 婆 撫 臂 摸 忍 蝦 蠟 鄰 胸 鞏 擠 偶 棄 槽 勁 乳 鄧 吉 仁 爛 磚 租 烏 艦 伴 瓜 淺 丙 暫 燥 橡 柳 迷 暖 牌 秧 膽 詳 簧 踏 瓷 譜 呆 賓 糊 洛
  輝 憤 競 隙 怒 粘 乃 緒 肩"

/-- bip39/wordlists/chinese_traditional.go:1623-1686. -/
def w25 : List Nat := words! "籍 敏 塗 熙 皆 偵 懸 掘 享 糾 醒 狂 鎖 淀 恨 牲 霸 爬 賞 逆 玩 陵 祝 秒 浙 貌 役 彼 悉 鴨 趨 鳳 晨 畜 輩 秩 卵 署 梯 炎 灘 棋 驅 篩 峽 冒 啥 壽 譯 浸 泉 帽 遲 矽 疆
  貸 漏 稿 冠 嫩 脅 芯 牢 叛"

/-- bip39/wordlists/chinese_traditional.go:1687-1750. -/
def w26 : List Nat := words! "蝕 奧 鳴 嶺 羊 憑 串 塘 繪 酵 融 盆 錫 廟 籌 凍 輔 攝 襲 筋 拒 僚 旱 鉀 鳥 漆 沈 眉 疏 添 棒 穗 硝 韓 逼 扭 僑 涼 挺 碗 栽 炒 杯 患 餾 勸 豪 遼 勃 鴻 旦 吏 拜 狗 埋
  輥 掩 飲 搬 罵 辭 勾 扣 估"

/-- bip39/wordlists/chinese_traditional.go:1751-1814. -/
def w27 : List Nat := words! "蔣 絨 霧 丈 朵 姆 擬 宇 輯 陝 雕 償 蓄 崇 剪 倡 廳 咬 駛 薯 刷 斥 番 賦 奉 佛 澆 漫 曼 扇 鈣 桃 扶 仔 返 俗 虧 腔 鞋 棱 覆 框 悄 叔 撞 騙 勘 旺 沸 孤 吐 孟 渠 屈 疾
  妙 惜 仰 狠 脹 諧 拋 黴 桑"

/-- bip39/wordlists/chinese_traditional.go:1815-1878. -/
def w28 : List Nat := words! "崗 嘛 衰 盜 滲 臟 賴 湧 甜 曹 閱 肌 哩 厲 烴 緯 毅 昨 偽 症 煮 嘆 釘 搭 莖 籠 酷 偷 弓 錐 恆 傑 坑 鼻 翼 綸 敘 獄 逮 罐 絡 棚 抑 膨 蔬 寺 驟 穆 冶 枯 冊 屍 凸 紳 坯
  犧 焰 轟 欣 晉 瘦 禦 錠 錦"

/-- bip39/wordlists/chinese_traditional.go:1879-1942. -/
def w29 : List Nat := words! "喪 旬 鍛 壟 搜 撲 邀 亭 酯 邁 舒 脆 酶 閒 憂 酚 頑 羽 漲 卸 仗 陪 闢 懲 杭 姚 肚 捉 飄 漂 昆 欺 吾 郎 烷 汁 呵 飾 蕭 雅 郵 遷 燕 撒 姻 赴 宴 煩 債 帳 斑 鈴 旨 醇 董
  餅 雛 姿 拌 傅 腹 妥 揉 賢"

/-- bip39/wordlists/chinese_traditional.go:1943-2006. -/
def w30 : List Nat := words! "拆 歪 葡 胺 丟 浩 徽 昂 墊 擋 覽 貪 慰 繳 汪 慌 馮 諾 姜 誼 兇 劣 誣 耀 昏 躺 盈 騎 喬 溪 叢 盧 抹 悶 諮 刮 駕 纜 悟 摘 鉺 擲 頗 幻 柄 惠 慘 佳 仇 臘 窩 滌 劍 瞧 堡
  潑 蔥 罩 霍 撈 胎 蒼 濱 倆"

/-- bip39/wordlists/chinese_traditional.go:2007-2070. -/
def w31 : List Nat := words! "捅 湘 砍 霞 邵 萄 瘋 淮 遂 熊 糞 烘 宿 檔 戈 駁 嫂 裕 徙 箭 捐 腸 撐 曬 辨 殿 蓮 攤 攪 醬 屏 疫 哀 蔡 堵 沫 皺 暢 疊 閣 萊 敲 轄 鉤 痕 壩 巷 餓 禍 丘 玄 溜 曰 邏 彭
  嘗 卿 妨 艇 吞 韋 怨 矮 歇"

/-- The whole list. -/
def codes : List Nat :=
  w0 ++ (w1 ++ (w2 ++ (w3 ++ (w4 ++ (w5 ++ (w6 ++ (w7 ++ (w8 ++ (w9 ++ (w10 ++ (w11 ++ (w12 ++ (w13 ++ (w14 ++ (w15 ++ (w16 ++ (w17 ++ (w18 ++ (w19 ++ (w20 ++ (w21 ++ (w22 ++ (w23 ++ (w24 ++ (w25 ++ (w26 ++ (w27 ++ (w28 ++ (w29 ++ (w30 ++ (w31)))))))))))))))))))))))))))))))

set_option maxRecDepth 100000

theorem crc0 : crcCodes w0 0xffffffff = 0xffae839f := by decide +kernel
theorem crc1 : crcCodes w1 0xffae839f = 0x34fef258 := by decide +kernel
theorem crc2 : crcCodes w2 0x34fef258 = 0x6661f074 := by decide +kernel
theorem crc3 : crcCodes w3 0x6661f074 = 0xcb699498 := by decide +kernel
theorem crc4 : crcCodes w4 0xcb699498 = 0xe21db9ef := by decide +kernel
theorem crc5 : crcCodes w5 0xe21db9ef = 0x4c52b5ee := by decide +kernel
theorem crc6 : crcCodes w6 0x4c52b5ee = 0xd705c5af := by decide +kernel
theorem crc7 : crcCodes w7 0xd705c5af = 0xb1d67a3e := by decide +kernel
theorem crc8 : crcCodes w8 0xb1d67a3e = 0xd43cfd6f := by decide +kernel
theorem crc9 : crcCodes w9 0xd43cfd6f = 0xe5579ef1 := by decide +kernel
theorem crc10 : crcCodes w10 0xe5579ef1 = 0x537f8ab6 := by decide +kernel
theorem crc11 : crcCodes w11 0x537f8ab6 = 0x757ba4e := by decide +kernel
theorem crc12 : crcCodes w12 0x757ba4e = 0xde7bdbb1 := by decide +kernel
theorem crc13 : crcCodes w13 0xde7bdbb1 = 0x88126637 := by decide +kernel
theorem crc14 : crcCodes w14 0x88126637 = 0x3aa1d1e8 := by decide +kernel
theorem crc15 : crcCodes w15 0x3aa1d1e8 = 0xca1e8dbd := by decide +kernel
theorem crc16 : crcCodes w16 0xca1e8dbd = 0x34d609ca := by decide +kernel
theorem crc17 : crcCodes w17 0x34d609ca = 0xff0bbce6 := by decide +kernel
theorem crc18 : crcCodes w18 0xff0bbce6 = 0xbcf6ac74 := by decide +kernel
theorem crc19 : crcCodes w19 0xbcf6ac74 = 0xa218947d := by decide +kernel
theorem crc20 : crcCodes w20 0xa218947d = 0x94d5082e := by decide +kernel
theorem crc21 : crcCodes w21 0x94d5082e = 0x22a4e866 := by decide +kernel
theorem crc22 : crcCodes w22 0x22a4e866 = 0x41735e4e := by decide +kernel
theorem crc23 : crcCodes w23 0x41735e4e = 0xc1822fd0 := by decide +kernel
theorem crc24 : crcCodes w24 0xc1822fd0 = 0x936c886a := by decide +kernel
theorem crc25 : crcCodes w25 0x936c886a = 0xcc156106 := by decide +kernel
theorem crc26 : crcCodes w26 0xcc156106 = 0x53644085 := by decide +kernel
theorem crc27 : crcCodes w27 0x53644085 = 0x7bdf7b33 := by decide +kernel
theorem crc28 : crcCodes w28 0x7bdf7b33 = 0x53e4c97f := by decide +kernel
theorem crc29 : crcCodes w29 0x53e4c97f = 0xe5509a00 := by decide +kernel
theorem crc30 : crcCodes w30 0xe5509a00 = 0x6cfb6a99 := by decide +kernel
theorem crc31 : crcCodes w31 0x6cfb6a99 = 0xc3df4bbc := by decide +kernel

theorem crc : crcCodes codes 0xffffffff = 0xc3df4bbc := by
  unfold codes
  rw [crcCodes_append, crc0,
    crcCodes_append, crc1,
    crcCodes_append, crc2,
    crcCodes_append, crc3,
    crcCodes_append, crc4,
    crcCodes_append, crc5,
    crcCodes_append, crc6,
    crcCodes_append, crc7,
    crcCodes_append, crc8,
    crcCodes_append, crc9,
    crcCodes_append, crc10,
    crcCodes_append, crc11,
    crcCodes_append, crc12,
    crcCodes_append, crc13,
    crcCodes_append, crc14,
    crcCodes_append, crc15,
    crcCodes_append, crc16,
    crcCodes_append, crc17,
    crcCodes_append, crc18,
    crcCodes_append, crc19,
    crcCodes_append, crc20,
    crcCodes_append, crc21,
    crcCodes_append, crc22,
    crcCodes_append, crc23,
    crcCodes_append, crc24,
    crcCodes_append, crc25,
    crcCodes_append, crc26,
    crcCodes_append, crc27,
    crcCodes_append, crc28,
    crcCodes_append, crc29,
    crcCodes_append, crc30, crc31]

theorem length : codes.length = 2048 := by decide +kernel

theorem distinct : distinct codes = true := by decide +kernel

theorem good : codes.all goodCode = true := by decide +kernel

end Bips.Data.ChineseTraditional
